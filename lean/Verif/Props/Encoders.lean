import Verif.Pack
import Verif.Props.EtsiMessages2
/-
C51: what a transmitter writes field by field is decoded to the same fields.

`pack [a, b, c]` (`Verif/Spec/Pack.lean`) are the octets of the fields `a`, `b`, `c` one after the other; `4#6` is the number 4 in six bits.
The proofs are schematic.
-/

set_option linter.unusedSimpArgs false

namespace Dmr.Etsi

open Dmr.Wire

/-- `DmrDataHeader.from_bytes(b).data` -/
def headerData (b : Bytes) : Except PyErr DmrDataHeader.DataUnion :=
  match DmrDataHeader.objFromBytes b with
  | .error e => .error e
  | .ok o => (DmrDataHeader.accessData o).1

theorem headerData_append (a more : Bytes) (ha : a.length = 12) :
    headerData (a ++ more) = .ok (DmrDataHeader.bodySpec (bitsAt a 4 4) a) := by
  have h : 12 ≤ (a ++ more).length := by rw [List.length_append]; omega
  unfold headerData
  rw [objFromBytes_eq _ (by omega)]
  dsimp only
  rw [(access_good h ⟨rfl, rfl, .inl rfl⟩).1, ← ha, List.take_left]
  have e4 : bitsAt a 4 4 = u8 a 0 % 16 := by
    have := bitsAt_byte a 0 4 4 (by omega) (by omega)
    simp only [Nat.mul_zero, Nat.zero_add] at this
    rw [this]; norm_num
  have e5 : u8 (a ++ more) 0 = u8 a 0 := by
    unfold u8
    simp only [List.getD_eq_getElem?_getD]
    rw [List.getElem?_append_left (by omega)]
  rw [e4, e5]

/-- C51: CSBK with opcode 4. -/
theorem C51_csbk_unit_to_unit_voice_request (last_block protect_flag : Bool) (feature_set_id : BitVec 8)
    (is_emergency_service privacy : Bool) (options_reserved : BitVec 2)
    (is_broadcast_service is_open_voice_call_mode : Bool) (priority_level : BitVec 2) (reserved : BitVec 8)
    (target_address source_address : BitVec 24) (more : Bytes) :
    fromBytes DmrCsbk.read
      (pack [last_block, protect_flag, 4#6, feature_set_id, is_emergency_service, privacy, options_reserved,
        is_broadcast_service, is_open_voice_call_mode, priority_level, reserved, target_address, source_address] ++
        more) =
    .ok { last_block := last_block, protect_flag := protect_flag, csbk_opcode := resolveEnum _ 4
          feature_set_id := feature_set_id.toNat
          csbk_data := some (.unitToUnitVoiceRequestData
            { service_options :=
                { is_emergency_service := is_emergency_service, privacy := privacy,
                  reserved := options_reserved.toNat, is_broadcast_service := is_broadcast_service,
                  is_open_voice_call_mode := is_open_voice_call_mode, priority_level := priority_level.toNat }
              reserved := reserved.toNat, target_address := target_address.toNat,
              source_address := source_address.toNat }) } := by
  rw [DmrCsbk.parses.fromBytes]
  packed
  have h2 : 2 ≤ m.length := by omega
  have h10 : 10 ≤ m.length := by omega
  simp only [DmrCsbk.spec, upTo, DmrCsbk.bodySpec, DmrCsbk.UnitToUnitVoiceRequestData.spec, DmrCsbk.ServiceOptions.spec, h2, h10,
    flagAt, hf, toNat_beq_one, whole, next, Parsed.as, Nat.mul_zero, Nat.zero_add, Nat.reduceMul, Nat.reduceAdd,
    Nat.reduceEqDiff, if_true, if_false]
  rfl

/-- C51: CSBK with opcode 5. -/
theorem C51_csbk_unit_to_unit_voice_answer (last_block protect_flag : Bool) (feature_set_id : BitVec 8)
    (is_emergency_service privacy : Bool) (options_reserved : BitVec 2)
    (is_broadcast_service is_open_voice_call_mode : Bool) (priority_level : BitVec 2) (answer_response : BitVec 8)
    (target_address source_address : BitVec 24) (more : Bytes) :
    fromBytes DmrCsbk.read
      (pack [last_block, protect_flag, 5#6, feature_set_id, is_emergency_service, privacy, options_reserved,
        is_broadcast_service, is_open_voice_call_mode, priority_level, answer_response, target_address,
        source_address] ++ more) =
    .ok { last_block := last_block, protect_flag := protect_flag, csbk_opcode := resolveEnum _ 5
          feature_set_id := feature_set_id.toNat
          csbk_data := some (.unitToUnitVoiceAnswerData
            { service_options :=
                { is_emergency_service := is_emergency_service, privacy := privacy,
                  reserved := options_reserved.toNat, is_broadcast_service := is_broadcast_service,
                  is_open_voice_call_mode := is_open_voice_call_mode, priority_level := priority_level.toNat }
              answer_response := resolveEnum _ answer_response.toNat, target_address := target_address.toNat,
              source_address := source_address.toNat }) } := by
  rw [DmrCsbk.parses.fromBytes]
  packed
  have h2 : 2 ≤ m.length := by omega
  have h10 : 10 ≤ m.length := by omega
  simp only [DmrCsbk.spec, upTo, DmrCsbk.bodySpec, DmrCsbk.UnitToUnitVoiceAnswerData.spec, DmrCsbk.ServiceOptions.spec, h2, h10,
    flagAt, hf, toNat_beq_one, whole, next, Parsed.as, Nat.mul_zero, Nat.zero_add, Nat.reduceMul, Nat.reduceAdd,
    Nat.reduceEqDiff, if_true, if_false]
  rfl

/-- C51: CSBK with opcode 7. -/
theorem C51_csbk_channel_timing (last_block protect_flag : Bool) (feature_set_id : BitVec 8)
    (sync_age : BitVec 11) (generation : BitVec 5) (leader_identifier : BitVec 20) (new_leader : Bool)
    (leader_dynamic_identifier : BitVec 2) (channel_timing_op1 : Bool) (source_identifier : BitVec 20)
    (reserved : Bool) (source_dynamic_identifier : BitVec 2) (channel_timing_op0 : Bool) (more : Bytes) :
    fromBytes DmrCsbk.read
      (pack [last_block, protect_flag, 7#6, feature_set_id, sync_age, generation, leader_identifier, new_leader,
        leader_dynamic_identifier, channel_timing_op1, source_identifier, reserved, source_dynamic_identifier,
        channel_timing_op0] ++ more) =
    .ok { last_block := last_block, protect_flag := protect_flag, csbk_opcode := resolveEnum _ 7
          feature_set_id := feature_set_id.toNat
          csbk_data := some (.channelTimingData
            { sync_age := sync_age.toNat, generation := generation.toNat,
              leader_identifier := leader_identifier.toNat, new_leader := new_leader,
              leader_dynamic_identifier := leader_dynamic_identifier.toNat, channel_timing_op1 := channel_timing_op1,
              source_identifier := source_identifier.toNat, reserved := reserved,
              source_dynamic_identifier := source_dynamic_identifier.toNat, channel_timing_op0 := channel_timing_op0 }) } := by
  rw [DmrCsbk.parses.fromBytes]
  packed
  have h2 : 2 ≤ m.length := by omega
  have h10 : 10 ≤ m.length := by omega
  simp only [DmrCsbk.spec, upTo, DmrCsbk.bodySpec, DmrCsbk.ChannelTimingData.spec, h2, h10,
    flagAt, hf, toNat_beq_one, whole, next, Parsed.as, Nat.mul_zero, Nat.zero_add, Nat.reduceMul, Nat.reduceAdd,
    Nat.reduceEqDiff, if_true, if_false]
  rfl

/-- C51: CSBK with opcode 38. -/
theorem C51_csbk_negative_ack_response (last_block protect_flag : Bool) (feature_set_id : BitVec 8)
    (additional_information_field source_type : Bool) (service_type : BitVec 6) (reason_code : BitVec 8)
    (source_address target_address : BitVec 24) (more : Bytes) :
    fromBytes DmrCsbk.read
      (pack [last_block, protect_flag, 38#6, feature_set_id, additional_information_field, source_type, service_type,
        reason_code, source_address, target_address] ++ more) =
    .ok { last_block := last_block, protect_flag := protect_flag, csbk_opcode := resolveEnum _ 38
          feature_set_id := feature_set_id.toNat
          csbk_data := some (.negativeAckResponseData
            { additional_information_field := additional_information_field, source_type := source_type,
              service_type := service_type.toNat, reason_code := reason_code.toNat,
              source_address := source_address.toNat, target_address := target_address.toNat }) } := by
  rw [DmrCsbk.parses.fromBytes]
  packed
  have h2 : 2 ≤ m.length := by omega
  have h10 : 10 ≤ m.length := by omega
  simp only [DmrCsbk.spec, upTo, DmrCsbk.bodySpec, DmrCsbk.NegativeAckResponseData.spec, h2, h10,
    flagAt, hf, toNat_beq_one, whole, next, Parsed.as, Nat.mul_zero, Nat.zero_add, Nat.reduceMul, Nat.reduceAdd,
    Nat.reduceEqDiff, if_true, if_false]
  rfl

/-- C51: CSBK with opcode 56. -/
theorem C51_csbk_bs_outbound_activation (last_block protect_flag : Bool) (feature_set_id : BitVec 8)
    (reserved : BitVec 16) (bs_address source_address : BitVec 24) (more : Bytes) :
    fromBytes DmrCsbk.read
      (pack [last_block, protect_flag, 56#6, feature_set_id, reserved, bs_address, source_address] ++ more) =
    .ok { last_block := last_block, protect_flag := protect_flag, csbk_opcode := resolveEnum _ 56
          feature_set_id := feature_set_id.toNat
          csbk_data := some (.bsOutboundActivationData
            { reserved := reserved.toNat, bs_address := bs_address.toNat, source_address := source_address.toNat }) } := by
  rw [DmrCsbk.parses.fromBytes]
  packed
  have h2 : 2 ≤ m.length := by omega
  have h10 : 10 ≤ m.length := by omega
  simp only [DmrCsbk.spec, upTo, DmrCsbk.bodySpec, DmrCsbk.BsOutboundActivationData.spec, h2, h10,
    flagAt, hf, toNat_beq_one, whole, next, Parsed.as, Nat.mul_zero, Nat.zero_add, Nat.reduceMul, Nat.reduceAdd,
    Nat.reduceEqDiff, if_true, if_false]
  rfl

/-- C51: CSBK with opcode 61. -/
theorem C51_csbk_preamble (last_block protect_flag : Bool) (feature_set_id : BitVec 8)
    (preamble_data_or_csbk group_or_individual : BitVec 1) (preamble_reserved : BitVec 6)
    (preamble_csbk_blocks_to_follow : BitVec 8) (target_address source_address : BitVec 24) (more : Bytes) :
    fromBytes DmrCsbk.read
      (pack [last_block, protect_flag, 61#6, feature_set_id, preamble_data_or_csbk, group_or_individual,
        preamble_reserved, preamble_csbk_blocks_to_follow, target_address, source_address] ++ more) =
    .ok { last_block := last_block, protect_flag := protect_flag, csbk_opcode := resolveEnum _ 61
          feature_set_id := feature_set_id.toNat
          csbk_data := some (.preambleData
            { preamble_data_or_csbk := resolveEnum _ preamble_data_or_csbk.toNat,
              group_or_individual := resolveEnum _ group_or_individual.toNat,
              preamble_reserved := preamble_reserved.toNat,
              preamble_csbk_blocks_to_follow := preamble_csbk_blocks_to_follow.toNat,
              target_address := target_address.toNat, source_address := source_address.toNat }) } := by
  rw [DmrCsbk.parses.fromBytes]
  packed
  have h2 : 2 ≤ m.length := by omega
  have h10 : 10 ≤ m.length := by omega
  simp only [DmrCsbk.spec, upTo, DmrCsbk.bodySpec, DmrCsbk.PreambleData.spec, h2, h10,
    flagAt, hf, toNat_beq_one, whole, next, Parsed.as, Nat.mul_zero, Nat.zero_add, Nat.reduceMul, Nat.reduceAdd,
    Nat.reduceEqDiff, if_true, if_false]
  rfl

/-- C51: full link control, opcode 0, with a 24 bit CRC. -/
theorem C51_flc_group_voice_channel_user (protect_flag reserved : Bool)
    (feature_set_id service_options : BitVec 8) (group_address source_address : BitVec 24) (crc more : Bytes) (hcrc :
    crc.length = 3) :
    fromBytes FullLinkControl.read
      (pack [protect_flag, reserved, 0#6, feature_set_id, service_options, group_address, source_address] ++ crc ++
        more) =
    .ok { protect_flag := protect_flag, reserved := reserved, full_link_control_opcode := resolveEnum _ 0
          feature_set_id := resolveEnum _ feature_set_id.toNat
          specific_data := some (.groupVoiceChannelUser
            { service_options := service_options.toNat, group_address := group_address.toNat,
              source_address := source_address.toNat })
          crc_checksum := some crc, cs5_checksum := none } := by
  rw [List.append_assoc]
  rw [FullLinkControl.fromBytes_eq]
  packed
  rw [List.length_append] at hl
  have h2 : 2 ≤ m.length := by omega
  have h9 : 9 ≤ m.length := by omega
  have h12 : 12 ≤ m.length := by omega
  have h10 : ¬ m.length ≤ 10 := by omega
  have hc : slice m 9 3 = crc := by rw [slice, hd, ← hcrc, List.take_left]
  simp only [FullLinkControl.spec, upTo, FullLinkControl.bodySpec, FullLinkControl.GroupVoiceChannelUser.spec, h2, h9, h12, h10, hc,
    flagAt, hf, toNat_beq_one, whole, next, Parsed.as, Nat.mul_zero, Nat.zero_add, Nat.reduceMul, Nat.reduceAdd,
    Nat.reduceEqDiff, if_true, if_false]
  try rfl

example := C51_flc_group_voice_channel_user (crc := [1, 2, 3]) (hcrc := rfl)

/-- C51: full link control, opcode 3, with a 24 bit CRC. -/
theorem C51_flc_unit_to_unit_voice_channel_user (protect_flag reserved : Bool)
    (feature_set_id service_options : BitVec 8) (target_address source_address : BitVec 24) (crc more : Bytes) (hcrc :
    crc.length = 3) :
    fromBytes FullLinkControl.read
      (pack [protect_flag, reserved, 3#6, feature_set_id, service_options, target_address, source_address] ++ crc ++
        more) =
    .ok { protect_flag := protect_flag, reserved := reserved, full_link_control_opcode := resolveEnum _ 3
          feature_set_id := resolveEnum _ feature_set_id.toNat
          specific_data := some (.unitToUnitVoiceChannelUser
            { service_options := service_options.toNat, target_address := target_address.toNat,
              source_address := source_address.toNat })
          crc_checksum := some crc, cs5_checksum := none } := by
  rw [List.append_assoc]
  rw [FullLinkControl.fromBytes_eq]
  packed
  rw [List.length_append] at hl
  have h2 : 2 ≤ m.length := by omega
  have h9 : 9 ≤ m.length := by omega
  have h12 : 12 ≤ m.length := by omega
  have h10 : ¬ m.length ≤ 10 := by omega
  have hc : slice m 9 3 = crc := by rw [slice, hd, ← hcrc, List.take_left]
  simp only [FullLinkControl.spec, upTo, FullLinkControl.bodySpec, FullLinkControl.UnitToUnitVoiceChannelUser.spec, h2, h9, h12, h10, hc,
    flagAt, hf, toNat_beq_one, whole, next, Parsed.as, Nat.mul_zero, Nat.zero_add, Nat.reduceMul, Nat.reduceAdd,
    Nat.reduceEqDiff, if_true, if_false]
  try rfl

example := C51_flc_unit_to_unit_voice_channel_user (crc := [1, 2, 3]) (hcrc := rfl)

/-- C51: full link control, opcode 4, with a 24 bit CRC. -/
theorem C51_flc_talker_alias_header (protect_flag reserved : Bool) (feature_set_id : BitVec 8)
    (talker_alias_data_format : BitVec 2) (talker_alias_data_length : BitVec 5) (talker_alias_data : BitVec 49)
    (crc more : Bytes) (hcrc : crc.length = 3) :
    fromBytes FullLinkControl.read
      (pack [protect_flag, reserved, 4#6, feature_set_id, talker_alias_data_format, talker_alias_data_length,
        talker_alias_data] ++ crc ++ more) =
    .ok { protect_flag := protect_flag, reserved := reserved, full_link_control_opcode := resolveEnum _ 4
          feature_set_id := resolveEnum _ feature_set_id.toNat
          specific_data := some (.talkerAliasHeader
            { talker_alias_data_format := resolveEnum _ talker_alias_data_format.toNat,
              talker_alias_data_length := talker_alias_data_length.toNat, talker_alias_data := talker_alias_data.toNat
              })
          crc_checksum := some crc, cs5_checksum := none } := by
  rw [List.append_assoc]
  rw [FullLinkControl.fromBytes_eq]
  packed
  rw [List.length_append] at hl
  have h2 : 2 ≤ m.length := by omega
  have h9 : 9 ≤ m.length := by omega
  have h12 : 12 ≤ m.length := by omega
  have h10 : ¬ m.length ≤ 10 := by omega
  have hc : slice m 9 3 = crc := by rw [slice, hd, ← hcrc, List.take_left]
  simp only [FullLinkControl.spec, upTo, FullLinkControl.bodySpec, FullLinkControl.TalkerAliasHeader.spec, h2, h9, h12, h10, hc,
    flagAt, hf, toNat_beq_one, whole, next, Parsed.as, Nat.mul_zero, Nat.zero_add, Nat.reduceMul, Nat.reduceAdd,
    Nat.reduceEqDiff, if_true, if_false]
  try rfl

example := C51_flc_talker_alias_header (crc := [1, 2, 3]) (hcrc := rfl)

/-- C51: full link control, opcode 8, with a 24 bit CRC. -/
theorem C51_flc_gps_info_lc_pdu (protect_flag reserved : Bool) (feature_set_id : BitVec 8)
    (body_reserved : BitVec 4) (position_error : BitVec 3) (longitude : BitVec 25) (latitude : BitVec 24)
    (crc more : Bytes) (hcrc : crc.length = 3) :
    fromBytes FullLinkControl.read
      (pack [protect_flag, reserved, 8#6, feature_set_id, body_reserved, position_error, longitude, latitude] ++ crc
        ++ more) =
    .ok { protect_flag := protect_flag, reserved := reserved, full_link_control_opcode := resolveEnum _ 8
          feature_set_id := resolveEnum _ feature_set_id.toNat
          specific_data := some (.gpsInfoLcPdu
            { reserved := body_reserved.toNat, position_error := resolveEnum _ position_error.toNat,
              longitude := longitude.toNat, latitude := latitude.toNat })
          crc_checksum := some crc, cs5_checksum := none } := by
  rw [List.append_assoc]
  rw [FullLinkControl.fromBytes_eq]
  packed
  rw [List.length_append] at hl
  have h2 : 2 ≤ m.length := by omega
  have h9 : 9 ≤ m.length := by omega
  have h12 : 12 ≤ m.length := by omega
  have h10 : ¬ m.length ≤ 10 := by omega
  have hc : slice m 9 3 = crc := by rw [slice, hd, ← hcrc, List.take_left]
  simp only [FullLinkControl.spec, upTo, FullLinkControl.bodySpec, FullLinkControl.GpsInfoLcPdu.spec, h2, h9, h12, h10, hc,
    flagAt, hf, toNat_beq_one, whole, next, Parsed.as, Nat.mul_zero, Nat.zero_add, Nat.reduceMul, Nat.reduceAdd,
    Nat.reduceEqDiff, if_true, if_false]
  try rfl

example := C51_flc_gps_info_lc_pdu (crc := [1, 2, 3]) (hcrc := rfl)

/-- C51: full link control, talker alias block, with a 24 bit CRC. -/
theorem C51_flc_talker_alias_continuation (protect_flag reserved : Bool) (opcode : BitVec 6)
    (feature_set_id : BitVec 8) (talker_alias_data : BitVec 56) (crc more : Bytes) (hcrc : crc.length = 3) (hop :
    opcode = 5#6 ∨ opcode = 6#6 ∨ opcode = 7#6) :
    fromBytes FullLinkControl.read
      (pack [protect_flag, reserved, opcode, feature_set_id, talker_alias_data] ++ crc ++ more) =
    .ok { protect_flag := protect_flag, reserved := reserved, full_link_control_opcode := resolveEnum _ opcode.toNat
          feature_set_id := resolveEnum _ feature_set_id.toNat
          specific_data := some (.talkerAliasContinuation
            { talker_alias_data := talker_alias_data.toNat })
          crc_checksum := some crc, cs5_checksum := none } := by
  rw [List.append_assoc]
  rw [FullLinkControl.fromBytes_eq]
  packed
  rw [List.length_append] at hl
  have h2 : 2 ≤ m.length := by omega
  have h9 : 9 ≤ m.length := by omega
  have h12 : 12 ≤ m.length := by omega
  have h10 : ¬ m.length ≤ 10 := by omega
  have hc : slice m 9 3 = crc := by rw [slice, hd, ← hcrc, List.take_left]
  rcases hop with rfl | rfl | rfl
  all_goals
    simp only [BitVec.toNat_ofNat, Nat.reducePow, Nat.reduceMod] at hf
    simp only [FullLinkControl.spec, upTo, FullLinkControl.bodySpec, FullLinkControl.TalkerAliasContinuation.spec, h2, h9, h12, h10, hc,
    flagAt, hf, toNat_beq_one, whole, next, Parsed.as, Nat.mul_zero, Nat.zero_add, Nat.reduceMul, Nat.reduceAdd,
    Nat.reduceEqDiff, if_true, if_false]
    try rfl

example := C51_flc_talker_alias_continuation (crc := [1, 2, 3]) (opcode := 6#6) (hcrc := rfl) (hop := (by decide))

/-- C51: full link control, opcode 0, with a 5 bit checksum. -/
theorem C51_flc_group_voice_channel_user_cs5 (protect_flag reserved : Bool)
    (feature_set_id service_options : BitVec 8) (group_address source_address : BitVec 24) (checksum : BitVec 5)
    (spare : BitVec 3) :
    fromBytes FullLinkControl.read
      (pack [protect_flag, reserved, 0#6, feature_set_id, service_options, group_address, source_address, checksum,
        spare]) =
    .ok { protect_flag := protect_flag, reserved := reserved, full_link_control_opcode := resolveEnum _ 0
          feature_set_id := resolveEnum _ feature_set_id.toNat
          specific_data := some (.groupVoiceChannelUser
            { service_options := service_options.toNat, group_address := group_address.toNat,
              source_address := source_address.toNat })
          crc_checksum := none, cs5_checksum := some checksum.toNat } := by
  rw [← List.append_nil (pack _)]
  rw [FullLinkControl.fromBytes_eq]
  packed
  simp only [List.length_nil, Nat.add_zero] at hl
  have h2 : 2 ≤ m.length := by omega
  have h9 : 9 ≤ m.length := by omega
  have h12 : ¬ 12 ≤ m.length := by omega
  have h10 : m.length ≤ 10 := by omega
  have h10' : 10 ≤ m.length := by omega
  simp only [FullLinkControl.spec, upTo, FullLinkControl.bodySpec, FullLinkControl.GroupVoiceChannelUser.spec, h2, h9, h12, h10, h10',
    flagAt, hf, toNat_beq_one, whole, next, Parsed.as, Nat.mul_zero, Nat.zero_add, Nat.reduceMul, Nat.reduceAdd,
    Nat.reduceEqDiff, if_true, if_false]
  try rfl

/-- C51: full link control, opcode 3, with a 5 bit checksum. -/
theorem C51_flc_unit_to_unit_voice_channel_user_cs5 (protect_flag reserved : Bool)
    (feature_set_id service_options : BitVec 8) (target_address source_address : BitVec 24) (checksum : BitVec 5)
    (spare : BitVec 3) :
    fromBytes FullLinkControl.read
      (pack [protect_flag, reserved, 3#6, feature_set_id, service_options, target_address, source_address, checksum,
        spare]) =
    .ok { protect_flag := protect_flag, reserved := reserved, full_link_control_opcode := resolveEnum _ 3
          feature_set_id := resolveEnum _ feature_set_id.toNat
          specific_data := some (.unitToUnitVoiceChannelUser
            { service_options := service_options.toNat, target_address := target_address.toNat,
              source_address := source_address.toNat })
          crc_checksum := none, cs5_checksum := some checksum.toNat } := by
  rw [← List.append_nil (pack _)]
  rw [FullLinkControl.fromBytes_eq]
  packed
  simp only [List.length_nil, Nat.add_zero] at hl
  have h2 : 2 ≤ m.length := by omega
  have h9 : 9 ≤ m.length := by omega
  have h12 : ¬ 12 ≤ m.length := by omega
  have h10 : m.length ≤ 10 := by omega
  have h10' : 10 ≤ m.length := by omega
  simp only [FullLinkControl.spec, upTo, FullLinkControl.bodySpec, FullLinkControl.UnitToUnitVoiceChannelUser.spec, h2, h9, h12, h10, h10',
    flagAt, hf, toNat_beq_one, whole, next, Parsed.as, Nat.mul_zero, Nat.zero_add, Nat.reduceMul, Nat.reduceAdd,
    Nat.reduceEqDiff, if_true, if_false]
  try rfl

/-- C51: full link control, opcode 4, with a 5 bit checksum. -/
theorem C51_flc_talker_alias_header_cs5 (protect_flag reserved : Bool) (feature_set_id : BitVec 8)
    (talker_alias_data_format : BitVec 2) (talker_alias_data_length : BitVec 5) (talker_alias_data : BitVec 49)
    (checksum : BitVec 5) (spare : BitVec 3) :
    fromBytes FullLinkControl.read
      (pack [protect_flag, reserved, 4#6, feature_set_id, talker_alias_data_format, talker_alias_data_length,
        talker_alias_data, checksum, spare]) =
    .ok { protect_flag := protect_flag, reserved := reserved, full_link_control_opcode := resolveEnum _ 4
          feature_set_id := resolveEnum _ feature_set_id.toNat
          specific_data := some (.talkerAliasHeader
            { talker_alias_data_format := resolveEnum _ talker_alias_data_format.toNat,
              talker_alias_data_length := talker_alias_data_length.toNat, talker_alias_data := talker_alias_data.toNat
              })
          crc_checksum := none, cs5_checksum := some checksum.toNat } := by
  rw [← List.append_nil (pack _)]
  rw [FullLinkControl.fromBytes_eq]
  packed
  simp only [List.length_nil, Nat.add_zero] at hl
  have h2 : 2 ≤ m.length := by omega
  have h9 : 9 ≤ m.length := by omega
  have h12 : ¬ 12 ≤ m.length := by omega
  have h10 : m.length ≤ 10 := by omega
  have h10' : 10 ≤ m.length := by omega
  simp only [FullLinkControl.spec, upTo, FullLinkControl.bodySpec, FullLinkControl.TalkerAliasHeader.spec, h2, h9, h12, h10, h10',
    flagAt, hf, toNat_beq_one, whole, next, Parsed.as, Nat.mul_zero, Nat.zero_add, Nat.reduceMul, Nat.reduceAdd,
    Nat.reduceEqDiff, if_true, if_false]
  try rfl

/-- C51: full link control, opcode 8, with a 5 bit checksum. -/
theorem C51_flc_gps_info_lc_pdu_cs5 (protect_flag reserved : Bool) (feature_set_id : BitVec 8)
    (body_reserved : BitVec 4) (position_error : BitVec 3) (longitude : BitVec 25) (latitude : BitVec 24)
    (checksum : BitVec 5) (spare : BitVec 3) :
    fromBytes FullLinkControl.read
      (pack [protect_flag, reserved, 8#6, feature_set_id, body_reserved, position_error, longitude, latitude,
        checksum, spare]) =
    .ok { protect_flag := protect_flag, reserved := reserved, full_link_control_opcode := resolveEnum _ 8
          feature_set_id := resolveEnum _ feature_set_id.toNat
          specific_data := some (.gpsInfoLcPdu
            { reserved := body_reserved.toNat, position_error := resolveEnum _ position_error.toNat,
              longitude := longitude.toNat, latitude := latitude.toNat })
          crc_checksum := none, cs5_checksum := some checksum.toNat } := by
  rw [← List.append_nil (pack _)]
  rw [FullLinkControl.fromBytes_eq]
  packed
  simp only [List.length_nil, Nat.add_zero] at hl
  have h2 : 2 ≤ m.length := by omega
  have h9 : 9 ≤ m.length := by omega
  have h12 : ¬ 12 ≤ m.length := by omega
  have h10 : m.length ≤ 10 := by omega
  have h10' : 10 ≤ m.length := by omega
  simp only [FullLinkControl.spec, upTo, FullLinkControl.bodySpec, FullLinkControl.GpsInfoLcPdu.spec, h2, h9, h12, h10, h10',
    flagAt, hf, toNat_beq_one, whole, next, Parsed.as, Nat.mul_zero, Nat.zero_add, Nat.reduceMul, Nat.reduceAdd,
    Nat.reduceEqDiff, if_true, if_false]
  try rfl

/-- C51: full link control, talker alias block, with a 5 bit checksum. -/
theorem C51_flc_talker_alias_continuation_cs5 (protect_flag reserved : Bool) (opcode : BitVec 6)
    (feature_set_id : BitVec 8) (talker_alias_data : BitVec 56) (checksum : BitVec 5) (spare : BitVec 3) (hop : opcode
    = 5#6 ∨ opcode = 6#6 ∨ opcode = 7#6) :
    fromBytes FullLinkControl.read
      (pack [protect_flag, reserved, opcode, feature_set_id, talker_alias_data, checksum, spare]) =
    .ok { protect_flag := protect_flag, reserved := reserved, full_link_control_opcode := resolveEnum _ opcode.toNat
          feature_set_id := resolveEnum _ feature_set_id.toNat
          specific_data := some (.talkerAliasContinuation
            { talker_alias_data := talker_alias_data.toNat })
          crc_checksum := none, cs5_checksum := some checksum.toNat } := by
  rw [← List.append_nil (pack _)]
  rw [FullLinkControl.fromBytes_eq]
  packed
  simp only [List.length_nil, Nat.add_zero] at hl
  have h2 : 2 ≤ m.length := by omega
  have h9 : 9 ≤ m.length := by omega
  have h12 : ¬ 12 ≤ m.length := by omega
  have h10 : m.length ≤ 10 := by omega
  have h10' : 10 ≤ m.length := by omega
  rcases hop with rfl | rfl | rfl
  all_goals
    simp only [BitVec.toNat_ofNat, Nat.reducePow, Nat.reduceMod] at hf
    simp only [FullLinkControl.spec, upTo, FullLinkControl.bodySpec, FullLinkControl.TalkerAliasContinuation.spec, h2, h9, h12, h10, h10',
    flagAt, hf, toNat_beq_one, whole, next, Parsed.as, Nat.mul_zero, Nat.zero_add, Nat.reduceMul, Nat.reduceAdd,
    Nat.reduceEqDiff, if_true, if_false]
    try rfl

example := C51_flc_talker_alias_continuation_cs5 (opcode := 6#6) (hop := (by decide))

/-- C51: data header of format 0. -/
theorem C51_data_header_udt (llid_destination_is_group response_requested : Bool) (reserved1 : BitVec 2)
    (sap_identifier udt_format : BitVec 4) (llid_destination llid_source : BitVec 24) (pad_nibble : BitVec 5)
    (reserved2 : Bool) (appended_blocks : BitVec 2) (supplementary_flag protect_flag : Bool) (udt_opcode : BitVec 6)
    (crc more : Bytes) (hcrc : crc.length = 2) :
    headerData
      (pack [llid_destination_is_group, response_requested, reserved1, 0#4, sap_identifier, udt_format,
        llid_destination, llid_source, pad_nibble, reserved2, appended_blocks, supplementary_flag, protect_flag,
        udt_opcode] ++ crc ++ more) =
    .ok (.dataHeaderUdt
      { llid_destination_is_group := llid_destination_is_group, response_requested := response_requested,
        reserved1 := reserved1.toNat, format := resolveEnum _ 0, sap_identifier := resolveEnum _ sap_identifier.toNat,
        udt_format := resolveEnum _ udt_format.toNat, llid_destination := llid_destination.toNat,
        llid_source := llid_source.toNat, pad_nibble := pad_nibble.toNat, reserved2 := reserved2,
        appended_blocks := appended_blocks.toNat, supplementary_flag := supplementary_flag,
        protect_flag := protect_flag, udt_opcode := resolveEnum _ udt_opcode.toNat, crc := crc }) := by
  rw [headerData_append _ _ (by simp only [length_pack, List.length_append, Nat.reduceAdd, Nat.reduceDiv, Nat.add_zero, hcrc, width, ofBitVec_w, ofBool_w])]
  packed
  have hc : slice m 10 2 = crc := by rw [slice, hd, ← hcrc, List.take_length]
  simp only [DmrDataHeader.bodySpec, DmrDataHeader.DataHeaderUdt.spec, hc,
    flagAt, hf, toNat_beq_one, whole, next, Parsed.as, Nat.mul_zero, Nat.zero_add, Nat.reduceMul, Nat.reduceAdd,
    Nat.reduceEqDiff, if_true, if_false]
  try rfl

example := C51_data_header_udt (crc := [1, 2]) (hcrc := rfl)

/-- C51: data header of format 1. -/
theorem C51_data_header_response (reserved1 response_requested : Bool) (reserved2 : BitVec 2)
    (sap_identifier reserved3 : BitVec 4) (llid_destination llid_source : BitVec 24) (full_message_flag : Bool)
    (blocks_to_follow : BitVec 7) (response_class : BitVec 2) (response_type response_status : BitVec 3)
    (crc more : Bytes) (hcrc : crc.length = 2) :
    headerData
      (pack [reserved1, response_requested, reserved2, 1#4, sap_identifier, reserved3, llid_destination, llid_source,
        full_message_flag, blocks_to_follow, response_class, response_type, response_status] ++ crc ++ more) =
    .ok (.dataHeaderResponse
      { reserved1 := reserved1, response_requested := response_requested, reserved2 := reserved2.toNat,
        format := resolveEnum _ 1, sap_identifier := resolveEnum _ sap_identifier.toNat, reserved3 := reserved3.toNat,
        llid_destination := llid_destination.toNat, llid_source := llid_source.toNat,
        full_message_flag := full_message_flag, blocks_to_follow := blocks_to_follow.toNat,
        response_class := resolveEnum _ response_class.toNat, response_type := response_type.toNat,
        response_status := response_status.toNat, crc := crc }) := by
  rw [headerData_append _ _ (by simp only [length_pack, List.length_append, Nat.reduceAdd, Nat.reduceDiv, Nat.add_zero, hcrc, width, ofBitVec_w, ofBool_w])]
  packed
  have hc : slice m 10 2 = crc := by rw [slice, hd, ← hcrc, List.take_length]
  simp only [DmrDataHeader.bodySpec, DmrDataHeader.DataHeaderResponse.spec, hc,
    flagAt, hf, toNat_beq_one, whole, next, Parsed.as, Nat.mul_zero, Nat.zero_add, Nat.reduceMul, Nat.reduceAdd,
    Nat.reduceEqDiff, if_true, if_false]
  try rfl

example := C51_data_header_response (crc := [1, 2]) (hcrc := rfl)

/-- C51: data header of format 2. -/
theorem C51_data_header_unconfirmed
    (llid_destination_is_group response_requested reserved1 pad_octet_count_msb : Bool)
    (sap_identifier pad_octet_count : BitVec 4) (llid_destination llid_source : BitVec 24) (full_message_flag : Bool)
    (blocks_to_follow : BitVec 7) (reserved2 fragment_sequence_number : BitVec 4) (crc more : Bytes) (hcrc :
    crc.length = 2) :
    headerData
      (pack [llid_destination_is_group, response_requested, reserved1, pad_octet_count_msb, 2#4, sap_identifier,
        pad_octet_count, llid_destination, llid_source, full_message_flag, blocks_to_follow, reserved2,
        fragment_sequence_number] ++ crc ++ more) =
    .ok (.dataHeaderUnconfirmed
      { llid_destination_is_group := llid_destination_is_group, response_requested := response_requested,
        reserved1 := reserved1, pad_octet_count_msb := pad_octet_count_msb, format := resolveEnum _ 2,
        sap_identifier := resolveEnum _ sap_identifier.toNat, pad_octet_count := pad_octet_count.toNat,
        llid_destination := llid_destination.toNat, llid_source := llid_source.toNat,
        full_message_flag := full_message_flag, blocks_to_follow := blocks_to_follow.toNat,
        reserved2 := reserved2.toNat, fragment_sequence_number := fragment_sequence_number.toNat, crc := crc }) := by
  rw [headerData_append _ _ (by simp only [length_pack, List.length_append, Nat.reduceAdd, Nat.reduceDiv, Nat.add_zero, hcrc, width, ofBitVec_w, ofBool_w])]
  packed
  have hc : slice m 10 2 = crc := by rw [slice, hd, ← hcrc, List.take_length]
  simp only [DmrDataHeader.bodySpec, DmrDataHeader.DataHeaderUnconfirmed.spec, hc,
    flagAt, hf, toNat_beq_one, whole, next, Parsed.as, Nat.mul_zero, Nat.zero_add, Nat.reduceMul, Nat.reduceAdd,
    Nat.reduceEqDiff, if_true, if_false]
  try rfl

example := C51_data_header_unconfirmed (crc := [1, 2]) (hcrc := rfl)

/-- C51: data header of format 3. -/
theorem C51_data_header_confirmed
    (llid_destination_is_group response_requested reserved1 pad_octet_count_msb : Bool)
    (sap_identifier pad_octet_count : BitVec 4) (llid_destination llid_source : BitVec 24) (full_message_flag : Bool)
    (blocks_to_follow : BitVec 7) (resynchronize_flag : Bool) (send_sequence_number : BitVec 3)
    (fragment_sequence_number : BitVec 4) (crc more : Bytes) (hcrc : crc.length = 2) :
    headerData
      (pack [llid_destination_is_group, response_requested, reserved1, pad_octet_count_msb, 3#4, sap_identifier,
        pad_octet_count, llid_destination, llid_source, full_message_flag, blocks_to_follow, resynchronize_flag,
        send_sequence_number, fragment_sequence_number] ++ crc ++ more) =
    .ok (.dataHeaderConfirmed
      { llid_destination_is_group := llid_destination_is_group, response_requested := response_requested,
        reserved1 := reserved1, pad_octet_count_msb := pad_octet_count_msb, format := resolveEnum _ 3,
        sap_identifier := resolveEnum _ sap_identifier.toNat, pad_octet_count := pad_octet_count.toNat,
        llid_destination := llid_destination.toNat, llid_source := llid_source.toNat,
        full_message_flag := full_message_flag, blocks_to_follow := blocks_to_follow.toNat,
        resynchronize_flag := resynchronize_flag, send_sequence_number := send_sequence_number.toNat,
        fragment_sequence_number := fragment_sequence_number.toNat, crc := crc }) := by
  rw [headerData_append _ _ (by simp only [length_pack, List.length_append, Nat.reduceAdd, Nat.reduceDiv, Nat.add_zero, hcrc, width, ofBitVec_w, ofBool_w])]
  packed
  have hc : slice m 10 2 = crc := by rw [slice, hd, ← hcrc, List.take_length]
  simp only [DmrDataHeader.bodySpec, DmrDataHeader.DataHeaderConfirmed.spec, hc,
    flagAt, hf, toNat_beq_one, whole, next, Parsed.as, Nat.mul_zero, Nat.zero_add, Nat.reduceMul, Nat.reduceAdd,
    Nat.reduceEqDiff, if_true, if_false]
  try rfl

example := C51_data_header_confirmed (crc := [1, 2]) (hcrc := rfl)

/-- C51: data header of format 13. -/
theorem C51_data_header_short_defined (llid_destination_is_group response_requested : Bool)
    (appended_blocks_msb : BitVec 2) (sap_identifier appended_blocks_lsb : BitVec 4)
    (llid_destination llid_source : BitVec 24) (defined_data : BitVec 6)
    (selective_automatic_repeat_request full_message_flag : Bool) (bit_padding : BitVec 8) (crc more : Bytes) (hcrc :
    crc.length = 2) :
    headerData
      (pack [llid_destination_is_group, response_requested, appended_blocks_msb, 13#4, sap_identifier,
        appended_blocks_lsb, llid_destination, llid_source, defined_data, selective_automatic_repeat_request,
        full_message_flag, bit_padding] ++ crc ++ more) =
    .ok (.dataHeaderShortDefined
      { llid_destination_is_group := llid_destination_is_group, response_requested := response_requested,
        appended_blocks_msb := appended_blocks_msb.toNat, format := resolveEnum _ 13,
        sap_identifier := resolveEnum _ sap_identifier.toNat, appended_blocks_lsb := appended_blocks_lsb.toNat,
        llid_destination := llid_destination.toNat, llid_source := llid_source.toNat,
        defined_data := resolveEnum _ defined_data.toNat,
        selective_automatic_repeat_request := selective_automatic_repeat_request,
        full_message_flag := full_message_flag, bit_padding := bit_padding.toNat, crc := crc }) := by
  rw [headerData_append _ _ (by simp only [length_pack, List.length_append, Nat.reduceAdd, Nat.reduceDiv, Nat.add_zero, hcrc, width, ofBitVec_w, ofBool_w])]
  packed
  have hc : slice m 10 2 = crc := by rw [slice, hd, ← hcrc, List.take_length]
  simp only [DmrDataHeader.bodySpec, DmrDataHeader.DataHeaderShortDefined.spec, hc,
    flagAt, hf, toNat_beq_one, whole, next, Parsed.as, Nat.mul_zero, Nat.zero_add, Nat.reduceMul, Nat.reduceAdd,
    Nat.reduceEqDiff, if_true, if_false]
  try rfl

example := C51_data_header_short_defined (crc := [1, 2]) (hcrc := rfl)

/-- C51: data header of format 14. -/
theorem C51_data_header_short_status_precoded (llid_destination_is_group response_requested : Bool)
    (appended_blocks_msb : BitVec 2) (sap_identifier appended_blocks_lsb : BitVec 4)
    (llid_destination llid_source : BitVec 24) (source_port destination_port : BitVec 3) (status_precoded : BitVec 10)
    (crc more : Bytes) (hcrc : crc.length = 2) :
    headerData
      (pack [llid_destination_is_group, response_requested, appended_blocks_msb, 14#4, sap_identifier,
        appended_blocks_lsb, llid_destination, llid_source, source_port, destination_port, status_precoded] ++ crc ++
        more) =
    .ok (.dataHeaderShortStatusPrecoded
      { llid_destination_is_group := llid_destination_is_group, response_requested := response_requested,
        appended_blocks_msb := appended_blocks_msb.toNat, format := resolveEnum _ 14,
        sap_identifier := resolveEnum _ sap_identifier.toNat, appended_blocks_lsb := appended_blocks_lsb.toNat,
        llid_destination := llid_destination.toNat, llid_source := llid_source.toNat,
        source_port := source_port.toNat, destination_port := destination_port.toNat,
        status_precoded := status_precoded.toNat, crc := crc }) := by
  rw [headerData_append _ _ (by simp only [length_pack, List.length_append, Nat.reduceAdd, Nat.reduceDiv, Nat.add_zero, hcrc, width, ofBitVec_w, ofBool_w])]
  packed
  have hc : slice m 10 2 = crc := by rw [slice, hd, ← hcrc, List.take_length]
  simp only [DmrDataHeader.bodySpec, DmrDataHeader.DataHeaderShortStatusPrecoded.spec, hc,
    flagAt, hf, toNat_beq_one, whole, next, Parsed.as, Nat.mul_zero, Nat.zero_add, Nat.reduceMul, Nat.reduceAdd,
    Nat.reduceEqDiff, if_true, if_false]
  try rfl

example := C51_data_header_short_status_precoded (crc := [1, 2]) (hcrc := rfl)

/-- C51: data header of format 15. -/
theorem C51_data_header_proprietary (sap_identifier : BitVec 4) (mfid : BitVec 8)
    (proprietary_data crc more : Bytes) (hproprietary_data : proprietary_data.length = 8) (hcrc : crc.length = 2) :
    headerData
      (pack [sap_identifier, 15#4, mfid] ++ proprietary_data ++ crc ++ more) =
    .ok (.dataHeaderProprietary
      { sap_identifier := resolveEnum _ sap_identifier.toNat, format := resolveEnum _ 15, mfid := mfid.toNat,
        proprietary_data := proprietary_data, crc := crc }) := by
  rw [List.append_assoc (pack _)]
  rw [headerData_append _ _ (by simp only [length_pack, List.length_append, Nat.reduceAdd, Nat.reduceDiv, Nat.add_zero, hproprietary_data, hcrc, width, ofBitVec_w, ofBool_w])]
  packed
  have hp : slice m 2 8 = proprietary_data := by rw [slice, hd, ← hproprietary_data, List.take_left]
  have hc : slice m 10 2 = crc := by
    rw [slice, show 10 = 2 + proprietary_data.length by omega, ← List.drop_drop, hd, List.drop_left, ← hcrc, List.take_length]
  simp only [DmrDataHeader.bodySpec, DmrDataHeader.DataHeaderProprietary.spec, hp, hc,
    flagAt, hf, toNat_beq_one, whole, next, Parsed.as, Nat.mul_zero, Nat.zero_add, Nat.reduceMul, Nat.reduceAdd,
    Nat.reduceEqDiff, if_true, if_false]
  try rfl

example := C51_data_header_proprietary (proprietary_data := List.replicate 8 7) (crc := [1, 2]) (hproprietary_data := rfl) (hcrc := rfl)

/-- C51: Rate1LastBlockUnconfirmed, 24 bytes. -/
theorem C51_block_rate1_last_block_unconfirmed  (user_data message_crc32 more : Bytes) (huser_data :
    user_data.length = 20) (hmessage_crc32 : message_crc32.length = 4) :
    fromBytes DmrData.Rate1LastBlockUnconfirmed.read
      (user_data ++ message_crc32 ++ more) =
    .ok { user_data := user_data, message_crc32 := message_crc32 } := by
  rw [DmrData.Rate1LastBlockUnconfirmed.fixed.fromBytes]
  have hn : 24 ≤ (user_data ++ message_crc32 ++ more).length := by simp only [List.length_append]; omega
  have h0 : slice (user_data ++ message_crc32 ++ more) 0 20 = user_data := by simp [slice, ← huser_data]
  have h1 : slice (user_data ++ message_crc32 ++ more) 20 4 = message_crc32 := by
    rw [slice, ← huser_data, List.append_assoc, List.drop_left, ← hmessage_crc32, List.take_left]
  simp only [DmrData.Rate1LastBlockUnconfirmed.spec, h0, h1, hn,
    if_true, Nat.zero_add]

example := C51_block_rate1_last_block_unconfirmed (user_data := List.replicate 20 7) (message_crc32 := [1, 2, 3, 4]) (huser_data := rfl) (hmessage_crc32 := rfl)

/-- C51: Rate12LastBlockConfirmed, 12 bytes. -/
theorem C51_block_rate12_last_block_confirmed (data_block_serial_number : BitVec 7) (crc9 : BitVec 9)
    (user_data message_crc32 more : Bytes) (huser_data : user_data.length = 6) (hmessage_crc32 : message_crc32.length
    = 4) :
    fromBytes DmrData.Rate12LastBlockConfirmed.read
      (pack [data_block_serial_number, crc9] ++ user_data ++ message_crc32 ++ more) =
    .ok { data_block_serial_number := data_block_serial_number.toNat, crc9 := crc9.toNat, user_data := user_data,
          message_crc32 := message_crc32 } := by
  rw [DmrData.Rate12LastBlockConfirmed.fixed.fromBytes]
  rw [List.append_assoc, List.append_assoc, ← List.append_assoc user_data]
  packed
  simp only [List.length_append] at hl
  have hn : 12 ≤ m.length := by omega
  have h0 : slice m 2 6 = user_data := by rw [slice, hd, ← huser_data, List.append_assoc, List.take_left]
  have h1 : slice m 8 4 = message_crc32 := by
    rw [slice, show 8 = 2 + user_data.length by omega, ← List.drop_drop, hd, List.append_assoc, List.drop_left, ← hmessage_crc32, List.take_left]
  simp only [DmrData.Rate12LastBlockConfirmed.spec, h0, h1, hn,
    flagAt, hf, toNat_beq_one, whole, next, Parsed.as, Nat.mul_zero, Nat.zero_add, Nat.reduceMul, Nat.reduceAdd,
    Nat.reduceEqDiff, if_true, if_false]

example := C51_block_rate12_last_block_confirmed (user_data := [1, 2, 3, 4, 5, 6]) (message_crc32 := [1, 2, 3, 4]) (huser_data := rfl) (hmessage_crc32 := rfl)

/-- C51: Rate12Confirmed, 12 bytes. -/
theorem C51_block_rate12_confirmed (data_block_serial_number : BitVec 7) (crc9 : BitVec 9)
    (user_data more : Bytes) (huser_data : user_data.length = 10) :
    fromBytes DmrData.Rate12Confirmed.read
      (pack [data_block_serial_number, crc9] ++ user_data ++ more) =
    .ok { data_block_serial_number := data_block_serial_number.toNat, crc9 := crc9.toNat, user_data := user_data } := by
  rw [DmrData.Rate12Confirmed.fixed.fromBytes]
  rw [List.append_assoc]
  packed
  simp only [List.length_append] at hl
  have hn : 12 ≤ m.length := by omega
  have h0 : slice m 2 10 = user_data := by rw [slice, hd, ← huser_data, List.take_left]
  simp only [DmrData.Rate12Confirmed.spec, h0, hn,
    flagAt, hf, toNat_beq_one, whole, next, Parsed.as, Nat.mul_zero, Nat.zero_add, Nat.reduceMul, Nat.reduceAdd,
    Nat.reduceEqDiff, if_true, if_false]

example := C51_block_rate12_confirmed (user_data := List.replicate 10 7) (huser_data := rfl)

/-- C51: Rate34LastBlockUnconfirmed, 18 bytes. -/
theorem C51_block_rate34_last_block_unconfirmed  (user_data message_crc32 more : Bytes) (huser_data :
    user_data.length = 14) (hmessage_crc32 : message_crc32.length = 4) :
    fromBytes DmrData.Rate34LastBlockUnconfirmed.read
      (user_data ++ message_crc32 ++ more) =
    .ok { user_data := user_data, message_crc32 := message_crc32 } := by
  rw [DmrData.Rate34LastBlockUnconfirmed.fixed.fromBytes]
  have hn : 18 ≤ (user_data ++ message_crc32 ++ more).length := by simp only [List.length_append]; omega
  have h0 : slice (user_data ++ message_crc32 ++ more) 0 14 = user_data := by simp [slice, ← huser_data]
  have h1 : slice (user_data ++ message_crc32 ++ more) 14 4 = message_crc32 := by
    rw [slice, ← huser_data, List.append_assoc, List.drop_left, ← hmessage_crc32, List.take_left]
  simp only [DmrData.Rate34LastBlockUnconfirmed.spec, h0, h1, hn,
    if_true, Nat.zero_add]

example := C51_block_rate34_last_block_unconfirmed (user_data := List.replicate 14 7) (message_crc32 := [1, 2, 3, 4]) (huser_data := rfl) (hmessage_crc32 := rfl)

/-- C51: Rate1LastBlockConfirmed, 24 bytes. -/
theorem C51_block_rate1_last_block_confirmed (data_block_serial_number : BitVec 7) (crc9 : BitVec 9)
    (user_data message_crc32 more : Bytes) (huser_data : user_data.length = 18) (hmessage_crc32 : message_crc32.length
    = 4) :
    fromBytes DmrData.Rate1LastBlockConfirmed.read
      (pack [data_block_serial_number, crc9] ++ user_data ++ message_crc32 ++ more) =
    .ok { data_block_serial_number := data_block_serial_number.toNat, crc9 := crc9.toNat, user_data := user_data,
          message_crc32 := message_crc32 } := by
  rw [DmrData.Rate1LastBlockConfirmed.fixed.fromBytes]
  rw [List.append_assoc, List.append_assoc, ← List.append_assoc user_data]
  packed
  simp only [List.length_append] at hl
  have hn : 24 ≤ m.length := by omega
  have h0 : slice m 2 18 = user_data := by rw [slice, hd, ← huser_data, List.append_assoc, List.take_left]
  have h1 : slice m 20 4 = message_crc32 := by
    rw [slice, show 20 = 2 + user_data.length by omega, ← List.drop_drop, hd, List.append_assoc, List.drop_left, ← hmessage_crc32, List.take_left]
  simp only [DmrData.Rate1LastBlockConfirmed.spec, h0, h1, hn,
    flagAt, hf, toNat_beq_one, whole, next, Parsed.as, Nat.mul_zero, Nat.zero_add, Nat.reduceMul, Nat.reduceAdd,
    Nat.reduceEqDiff, if_true, if_false]

example := C51_block_rate1_last_block_confirmed (user_data := List.replicate 18 7) (message_crc32 := [1, 2, 3, 4]) (huser_data := rfl) (hmessage_crc32 := rfl)

/-- C51: Rate1Unconfirmed, 24 bytes. -/
theorem C51_block_rate1_unconfirmed  (user_data more : Bytes) (huser_data : user_data.length = 24) :
    fromBytes DmrData.Rate1Unconfirmed.read
      (user_data ++ more) =
    .ok { user_data := user_data } := by
  rw [DmrData.Rate1Unconfirmed.fixed.fromBytes]
  have hn : 24 ≤ (user_data ++ more).length := by simp only [List.length_append]; omega
  have h0 : slice (user_data ++ more) 0 24 = user_data := by simp [slice, ← huser_data]
  simp only [DmrData.Rate1Unconfirmed.spec, h0, hn,
    if_true, Nat.zero_add]

example := C51_block_rate1_unconfirmed (user_data := List.replicate 24 7) (huser_data := rfl)

/-- C51: UdtLastBlock, 12 bytes. -/
theorem C51_block_udt_last_block  (user_data message_crc16 more : Bytes) (huser_data : user_data.length = 10)
    (hmessage_crc16 : message_crc16.length = 2) :
    fromBytes DmrData.UdtLastBlock.read
      (user_data ++ message_crc16 ++ more) =
    .ok { user_data := user_data, message_crc16 := message_crc16 } := by
  rw [DmrData.UdtLastBlock.fixed.fromBytes]
  have hn : 12 ≤ (user_data ++ message_crc16 ++ more).length := by simp only [List.length_append]; omega
  have h0 : slice (user_data ++ message_crc16 ++ more) 0 10 = user_data := by simp [slice, ← huser_data]
  have h1 : slice (user_data ++ message_crc16 ++ more) 10 2 = message_crc16 := by
    rw [slice, ← huser_data, List.append_assoc, List.drop_left, ← hmessage_crc16, List.take_left]
  simp only [DmrData.UdtLastBlock.spec, h0, h1, hn,
    if_true, Nat.zero_add]

example := C51_block_udt_last_block (user_data := List.replicate 10 7) (message_crc16 := [1, 2]) (huser_data := rfl) (hmessage_crc16 := rfl)

/-- C51: Rate34Confirmed, 18 bytes. -/
theorem C51_block_rate34_confirmed (data_block_serial_number : BitVec 7) (crc9 : BitVec 9)
    (user_data more : Bytes) (huser_data : user_data.length = 16) :
    fromBytes DmrData.Rate34Confirmed.read
      (pack [data_block_serial_number, crc9] ++ user_data ++ more) =
    .ok { data_block_serial_number := data_block_serial_number.toNat, crc9 := crc9.toNat, user_data := user_data } := by
  rw [DmrData.Rate34Confirmed.fixed.fromBytes]
  rw [List.append_assoc]
  packed
  simp only [List.length_append] at hl
  have hn : 18 ≤ m.length := by omega
  have h0 : slice m 2 16 = user_data := by rw [slice, hd, ← huser_data, List.take_left]
  simp only [DmrData.Rate34Confirmed.spec, h0, hn,
    flagAt, hf, toNat_beq_one, whole, next, Parsed.as, Nat.mul_zero, Nat.zero_add, Nat.reduceMul, Nat.reduceAdd,
    Nat.reduceEqDiff, if_true, if_false]

example := C51_block_rate34_confirmed (user_data := List.replicate 16 7) (huser_data := rfl)

/-- C51: Rate34LastBlockConfirmed, 18 bytes. -/
theorem C51_block_rate34_last_block_confirmed (data_block_serial_number : BitVec 7) (crc9 : BitVec 9)
    (user_data message_crc32 more : Bytes) (huser_data : user_data.length = 12) (hmessage_crc32 : message_crc32.length
    = 4) :
    fromBytes DmrData.Rate34LastBlockConfirmed.read
      (pack [data_block_serial_number, crc9] ++ user_data ++ message_crc32 ++ more) =
    .ok { data_block_serial_number := data_block_serial_number.toNat, crc9 := crc9.toNat, user_data := user_data,
          message_crc32 := message_crc32 } := by
  rw [DmrData.Rate34LastBlockConfirmed.fixed.fromBytes]
  rw [List.append_assoc, List.append_assoc, ← List.append_assoc user_data]
  packed
  simp only [List.length_append] at hl
  have hn : 18 ≤ m.length := by omega
  have h0 : slice m 2 12 = user_data := by rw [slice, hd, ← huser_data, List.append_assoc, List.take_left]
  have h1 : slice m 14 4 = message_crc32 := by
    rw [slice, show 14 = 2 + user_data.length by omega, ← List.drop_drop, hd, List.append_assoc, List.drop_left, ← hmessage_crc32, List.take_left]
  simp only [DmrData.Rate34LastBlockConfirmed.spec, h0, h1, hn,
    flagAt, hf, toNat_beq_one, whole, next, Parsed.as, Nat.mul_zero, Nat.zero_add, Nat.reduceMul, Nat.reduceAdd,
    Nat.reduceEqDiff, if_true, if_false]

example := C51_block_rate34_last_block_confirmed (user_data := List.replicate 12 7) (message_crc32 := [1, 2, 3, 4]) (huser_data := rfl) (hmessage_crc32 := rfl)

/-- C51: Rate34Unconfirmed, 18 bytes. -/
theorem C51_block_rate34_unconfirmed  (user_data more : Bytes) (huser_data : user_data.length = 18) :
    fromBytes DmrData.Rate34Unconfirmed.read
      (user_data ++ more) =
    .ok { user_data := user_data } := by
  rw [DmrData.Rate34Unconfirmed.fixed.fromBytes]
  have hn : 18 ≤ (user_data ++ more).length := by simp only [List.length_append]; omega
  have h0 : slice (user_data ++ more) 0 18 = user_data := by simp [slice, ← huser_data]
  simp only [DmrData.Rate34Unconfirmed.spec, h0, hn,
    if_true, Nat.zero_add]

example := C51_block_rate34_unconfirmed (user_data := List.replicate 18 7) (huser_data := rfl)

/-- C51: Rate12LastBlockUnconfirmed, 12 bytes. -/
theorem C51_block_rate12_last_block_unconfirmed  (user_data message_crc32 more : Bytes) (huser_data :
    user_data.length = 8) (hmessage_crc32 : message_crc32.length = 4) :
    fromBytes DmrData.Rate12LastBlockUnconfirmed.read
      (user_data ++ message_crc32 ++ more) =
    .ok { user_data := user_data, message_crc32 := message_crc32 } := by
  rw [DmrData.Rate12LastBlockUnconfirmed.fixed.fromBytes]
  have hn : 12 ≤ (user_data ++ message_crc32 ++ more).length := by simp only [List.length_append]; omega
  have h0 : slice (user_data ++ message_crc32 ++ more) 0 8 = user_data := by simp [slice, ← huser_data]
  have h1 : slice (user_data ++ message_crc32 ++ more) 8 4 = message_crc32 := by
    rw [slice, ← huser_data, List.append_assoc, List.drop_left, ← hmessage_crc32, List.take_left]
  simp only [DmrData.Rate12LastBlockUnconfirmed.spec, h0, h1, hn,
    if_true, Nat.zero_add]

example := C51_block_rate12_last_block_unconfirmed (user_data := List.replicate 8 7) (message_crc32 := [1, 2, 3, 4]) (huser_data := rfl) (hmessage_crc32 := rfl)

/-- C51: Rate1Confirmed, 24 bytes. -/
theorem C51_block_rate1_confirmed (data_block_serial_number : BitVec 7) (crc9 : BitVec 9) (user_data more : Bytes)
    (huser_data : user_data.length = 22) :
    fromBytes DmrData.Rate1Confirmed.read
      (pack [data_block_serial_number, crc9] ++ user_data ++ more) =
    .ok { data_block_serial_number := data_block_serial_number.toNat, crc9 := crc9.toNat, user_data := user_data } := by
  rw [DmrData.Rate1Confirmed.fixed.fromBytes]
  rw [List.append_assoc]
  packed
  simp only [List.length_append] at hl
  have hn : 24 ≤ m.length := by omega
  have h0 : slice m 2 22 = user_data := by rw [slice, hd, ← huser_data, List.take_left]
  simp only [DmrData.Rate1Confirmed.spec, h0, hn,
    flagAt, hf, toNat_beq_one, whole, next, Parsed.as, Nat.mul_zero, Nat.zero_add, Nat.reduceMul, Nat.reduceAdd,
    Nat.reduceEqDiff, if_true, if_false]

example := C51_block_rate1_confirmed (user_data := List.replicate 22 7) (huser_data := rfl)

/-- C51: Rate12Unconfirmed, 12 bytes. -/
theorem C51_block_rate12_unconfirmed  (user_data more : Bytes) (huser_data : user_data.length = 12) :
    fromBytes DmrData.Rate12Unconfirmed.read
      (user_data ++ more) =
    .ok { user_data := user_data } := by
  rw [DmrData.Rate12Unconfirmed.fixed.fromBytes]
  have hn : 12 ≤ (user_data ++ more).length := by simp only [List.length_append]; omega
  have h0 : slice (user_data ++ more) 0 12 = user_data := by simp [slice, ← huser_data]
  simp only [DmrData.Rate12Unconfirmed.spec, h0, hn,
    if_true, Nat.zero_add]

example := C51_block_rate12_unconfirmed (user_data := List.replicate 12 7) (huser_data := rfl)

/-- C51: DataHeaderShortRaw, 12 bytes. -/
theorem C51_data_header_short_raw (llid_destination_is_group response_requested : Bool)
    (appended_blocks_msb : BitVec 2) (format sap_identifier appended_blocks_lsb : BitVec 4)
    (llid_destination llid_source : BitVec 24) (source_port destination_port : BitVec 3)
    (selective_automatic_repeat_request full_message_flag : Bool) (bit_padding : BitVec 8) (crc more : Bytes) (hcrc :
    crc.length = 2) :
    fromBytes DmrDataHeader.DataHeaderShortRaw.read
      (pack [llid_destination_is_group, response_requested, appended_blocks_msb, format, sap_identifier,
        appended_blocks_lsb, llid_destination, llid_source, source_port, destination_port,
        selective_automatic_repeat_request, full_message_flag, bit_padding] ++ crc ++ more) =
    .ok { llid_destination_is_group := llid_destination_is_group, response_requested := response_requested,
          appended_blocks_msb := appended_blocks_msb.toNat, format := resolveEnum _ format.toNat,
          sap_identifier := resolveEnum _ sap_identifier.toNat, appended_blocks_lsb := appended_blocks_lsb.toNat,
          llid_destination := llid_destination.toNat, llid_source := llid_source.toNat,
          source_port := source_port.toNat, destination_port := destination_port.toNat,
          selective_automatic_repeat_request := selective_automatic_repeat_request,
          full_message_flag := full_message_flag, bit_padding := bit_padding.toNat, crc := crc } := by
  rw [DmrDataHeader.DataHeaderShortRaw.fixed.fromBytes]
  rw [List.append_assoc]
  packed
  simp only [List.length_append] at hl
  have hn : 12 ≤ m.length := by omega
  have h0 : slice m 10 2 = crc := by rw [slice, hd, ← hcrc, List.take_left]
  simp only [DmrDataHeader.DataHeaderShortRaw.spec, h0, hn,
    flagAt, hf, toNat_beq_one, whole, next, Parsed.as, Nat.mul_zero, Nat.zero_add, Nat.reduceMul, Nat.reduceAdd,
    Nat.reduceEqDiff, if_true, if_false]

example := C51_data_header_short_raw (crc := [1, 2]) (hcrc := rfl)

/-! Concrete cases: what `pack` gives for some messages, and that the octets are accepted. -/

/-- preamble: last block, 3 more blocks, group 0x010203 from 0x0A0B0C -/
example : pack [true, false, 61#6, 0#8, true, true, 0#6, 3#8, 0x010203#24, 0x0A0B0C#24] =
    [0xBD, 0, 0xC0, 3, 1, 2, 3, 0x0A, 0x0B, 0x0C] := by decide +kernel

example : (fromBytes DmrCsbk.read (pack [true, false, 61#6, 0#8, true, true, 0#6, 3#8, 0x010203#24, 0x0A0B0C#24] ++
    [0xAA, 0xBB])).map (fun o => (o.last_block, o.feature_set_id)) = .ok (true, 0) := by decide +kernel

/-- a number that crosses the octet boundaries -/
example : pack [true, 0x7FE#11, 0x5#4, 0x1FF#9, 0x0#7] = [0xFF, 0xE5, 0xFF, 0x80] := by decide +kernel

/-- octets in the other order -/
example : pack [le16 0x0102#16, le32 0x03040506#32] = [2, 1, 6, 5, 4, 3] := by decide +kernel

/-- 22 octets with serial number 5 -/
example : ∃ o, fromBytes DmrData.Rate1Confirmed.read (pack [5#7, 0x155#9] ++ List.replicate 22 7 ++ [1]) = .ok o ∧
    o.data_block_serial_number = 5 ∧ o.crc9 = 0x155 :=
  ⟨_, C51_block_rate1_confirmed 5 0x155 (List.replicate 22 7) [1] rfl, rfl, rfl⟩

/-- a data header with its checksum -/
example : ∃ o, fromBytes DmrDataHeader.DataHeaderShortRaw.read
    (pack [true, false, 1#2, 13#4, 4#4, 2#4, 77#24, 78#24, 3#3, 5#3, true, false, 0#8] ++ [0xAB, 0xCD] ++ []) = .ok o ∧
    o.llid_source = 78 ∧ o.source_port = 3 ∧ o.destination_port = 5 ∧ o.crc = [0xAB, 0xCD] :=
  ⟨_, C51_data_header_short_raw true false 1 13 4 2 77 78 3 5 true false 0 [0xAB, 0xCD] [] rfl, rfl, rfl, rfl, rfl⟩

end Dmr.Etsi
