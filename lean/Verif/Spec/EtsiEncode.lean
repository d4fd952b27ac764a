import Verif.Spec.Pack
import Verif.Model.Etsi.DmrCsbk
import Verif.Model.Etsi.DmrDataHeader
import Verif.Model.Etsi.DmrIpUdp
import Verif.Model.Etsi.FullLinkControl
/-
Specification of an ETSI transmitter: what it wants to say (the constructors below), what it writes (`flds`, in the order of the
protocol documents), and the object that a receiver should get (`obj`). Nothing here mentions readers or offsets.
-/

set_option autoImplicit false

namespace Dmr.Wire

open Spec Etsi

/-! ### CSBK -/

/-- The options of a voice service. -/
structure Service where
  emergency : Bool
  privacy : Bool
  reserved : BitVec 2
  broadcast : Bool
  open_voice_call_mode : Bool
  priority : BitVec 2

def Service.flds (x : Service) : List Fld :=
  [x.emergency, x.privacy, x.reserved, x.broadcast, x.open_voice_call_mode, x.priority]

def Service.obj (x : Service) : DmrCsbk.ServiceOptions where
  is_emergency_service := x.emergency
  privacy := x.privacy
  reserved := x.reserved.toNat
  is_broadcast_service := x.broadcast
  is_open_voice_call_mode := x.open_voice_call_mode
  priority_level := x.priority.toNat

/-- What a control signalling block can say. -/
inductive Csbk
  | voiceRequest (options : Service) (reserved : BitVec 8) (target source : BitVec 24)
  | voiceAnswer (options : Service) (answer : BitVec 8) (target source : BitVec 24)
  | channelTiming (sync_age : BitVec 11) (generation : BitVec 5) (leader : BitVec 20) (new_leader : Bool)
      (leader_dynamic : BitVec 2) (op1 : Bool) (source : BitVec 20) (reserved : Bool) (source_dynamic : BitVec 2) (op0 : Bool)
  | negativeAck (additional source_type : Bool) (service : BitVec 6) (reason : BitVec 8) (source target : BitVec 24)
  | activation (reserved : BitVec 16) (bs source : BitVec 24)
  | preamble (data_or_csbk group : BitVec 1) (reserved : BitVec 6) (blocks : BitVec 8) (target source : BitVec 24)

def Csbk.opcode : Csbk → BitVec 6
  | voiceRequest .. => 4#6
  | voiceAnswer .. => 5#6
  | channelTiming .. => 7#6
  | negativeAck .. => 38#6
  | activation .. => 56#6
  | preamble .. => 61#6

/-- The opcodes in use. -/
def Csbk.opcodes : List Nat := [4, 5, 7, 38, 56, 61]

def Csbk.flds : Csbk → List Fld
  | voiceRequest options reserved target source => options.flds ++ f[reserved, target, source]
  | voiceAnswer options answer target source => options.flds ++ f[answer, target, source]
  | channelTiming sync_age generation leader new_leader leader_dynamic op1 source reserved source_dynamic op0 =>
      f[sync_age, generation, leader, new_leader, leader_dynamic, op1, source, reserved, source_dynamic, op0]
  | negativeAck additional source_type service reason source target => f[additional, source_type, service, reason, source, target]
  | activation reserved bs source => f[reserved, bs, source]
  | preamble data_or_csbk group reserved blocks target source => f[data_or_csbk, group, reserved, blocks, target, source]

def Csbk.obj : Csbk → DmrCsbk.CsbkDataUnion
  | voiceRequest options reserved target source => .unitToUnitVoiceRequestData
      { service_options := options.obj, reserved := reserved.toNat, target_address := target.toNat, source_address := source.toNat }
  | voiceAnswer options answer target source => .unitToUnitVoiceAnswerData
      { service_options := options.obj, answer_response := resolveEnum _ answer.toNat, target_address := target.toNat,
        source_address := source.toNat }
  | channelTiming sync_age generation leader new_leader leader_dynamic op1 source reserved source_dynamic op0 => .channelTimingData
      { sync_age := sync_age.toNat, generation := generation.toNat, leader_identifier := leader.toNat, new_leader,
        leader_dynamic_identifier := leader_dynamic.toNat, channel_timing_op1 := op1, source_identifier := source.toNat, reserved,
        source_dynamic_identifier := source_dynamic.toNat, channel_timing_op0 := op0 }
  | negativeAck additional source_type service reason source target => .negativeAckResponseData
      { additional_information_field := additional, source_type, service_type := service.toNat, reason_code := reason.toNat,
        source_address := source.toNat, target_address := target.toNat }
  | activation reserved bs source => .bsOutboundActivationData
      { reserved := reserved.toNat, bs_address := bs.toNat, source_address := source.toNat }
  | preamble data_or_csbk group reserved blocks target source => .preambleData
      { preamble_data_or_csbk := resolveEnum _ data_or_csbk.toNat, group_or_individual := resolveEnum _ group.toNat,
        preamble_reserved := reserved.toNat, preamble_csbk_blocks_to_follow := blocks.toNat, target_address := target.toNat,
        source_address := source.toNat }

/-- The octets of a block: two flags, opcode, feature set, and what it says. -/
def Csbk.bytes (last protect : Bool) (feature_set : BitVec 8) (msg : Csbk) : Bytes :=
  pack (f[last, protect, msg.opcode, feature_set] ++ msg.flds)

def Csbk.message (last protect : Bool) (feature_set : BitVec 8) (msg : Csbk) : DmrCsbk where
  last_block := last
  protect_flag := protect
  csbk_opcode := resolveEnum _ msg.opcode.toNat
  feature_set_id := feature_set.toNat
  csbk_data := some msg.obj

/-! ### Full link control -/

/-- What a full link control message can say. -/
inductive Flc
  | groupVoice (options : BitVec 8) (group source : BitVec 24)
  | unitVoice (options : BitVec 8) (target source : BitVec 24)
  | aliasHeader (format : BitVec 2) (length : BitVec 5) (data : BitVec 49)
  | aliasBlock1 (data : BitVec 56)
  | aliasBlock2 (data : BitVec 56)
  | aliasBlock3 (data : BitVec 56)
  | gps (reserved : BitVec 4) (error : BitVec 3) (longitude : BitVec 25) (latitude : BitVec 24)

def Flc.opcode : Flc → BitVec 6
  | groupVoice .. => 0#6
  | unitVoice .. => 3#6
  | aliasHeader .. => 4#6
  | aliasBlock1 .. => 5#6
  | aliasBlock2 .. => 6#6
  | aliasBlock3 .. => 7#6
  | gps .. => 8#6

/-- The opcodes in use. -/
def Flc.opcodes : List Nat := [0, 3, 4, 5, 6, 7, 8]

def Flc.flds : Flc → List Fld
  | groupVoice options group source => f[options, group, source]
  | unitVoice options target source => f[options, target, source]
  | aliasHeader format length data => f[format, length, data]
  | aliasBlock1 data | aliasBlock2 data | aliasBlock3 data => f[data]
  | gps reserved error longitude latitude => f[reserved, error, longitude, latitude]

def Flc.obj : Flc → FullLinkControl.SpecificDataUnion
  | groupVoice options group source => .groupVoiceChannelUser
      { service_options := options.toNat, group_address := group.toNat, source_address := source.toNat }
  | unitVoice options target source => .unitToUnitVoiceChannelUser
      { service_options := options.toNat, target_address := target.toNat, source_address := source.toNat }
  | aliasHeader format length data => .talkerAliasHeader
      { talker_alias_data_format := resolveEnum _ format.toNat, talker_alias_data_length := length.toNat,
        talker_alias_data := data.toNat }
  | aliasBlock1 data | aliasBlock2 data | aliasBlock3 data => .talkerAliasContinuation { talker_alias_data := data.toNat }
  | gps reserved error longitude latitude => .gpsInfoLcPdu
      { reserved := reserved.toNat, position_error := resolveEnum _ error.toNat, longitude := longitude.toNat,
        latitude := latitude.toNat }

/-- What the nine octets of a message are followed by. -/
inductive FlcEnd
  /-- a full LC: three octets of CRC (and whatever else) -/
  | crc (crc : Octets 3) (rest : Bytes)
  /-- two octets, which are not looked at -/
  | neither (two : Octets 2)
  /-- an embedded LC: a checksum of five bits in one last octet -/
  | cs5 (checksum : BitVec 5) (spare : BitVec 3)

def FlcEnd.bytes : FlcEnd → Bytes
  | crc c rest => c.val ++ rest
  | neither two => two.val
  | cs5 checksum spare => pack f[checksum, spare]

/-- What an unknown message (two octets) is followed by. -/
inductive FlcUnknownEnd
  /-- eleven octets or more in total: three octets of CRC -/
  | crc (crc : Octets 3) (rest : Bytes) (h : 6 ≤ rest.length)
  /-- six to ten octets in total: three octets of CRC and a checksum of five bits -/
  | both (crc : Octets 3) (checksum : BitVec 5) (spare : BitVec 3) (rest : Bytes) (h : rest.length ≤ 4)
  /-- three or four octets in total: a checksum of five bits -/
  | cs5 (checksum : BitVec 5) (spare : BitVec 3) (rest : Bytes) (h : rest.length ≤ 1)

def FlcUnknownEnd.bytes : FlcUnknownEnd → Bytes
  | crc c rest _ => c.val ++ rest
  | both c checksum spare rest _ => c.val ++ pack f[checksum, spare] ++ rest
  | cs5 checksum spare rest _ => pack f[checksum, spare] ++ rest

/-- The octets of a message: two flags, opcode, feature set, and what it says. -/
def Flc.bytes (protect reserved : Bool) (feature_set : BitVec 8) (msg : Flc) : Bytes :=
  pack (f[protect, reserved, msg.opcode, feature_set] ++ msg.flds)

def Flc.message (protect reserved : Bool) (feature_set : BitVec 8) (msg : Flc) (last : FlcEnd) : FullLinkControl where
  protect_flag := protect
  reserved := reserved
  full_link_control_opcode := resolveEnum _ msg.opcode.toNat
  feature_set_id := resolveEnum _ feature_set.toNat
  specific_data := some msg.obj
  crc_checksum := match last with | .crc crc _ => some crc.val | _ => none
  cs5_checksum := match last with | .cs5 checksum _ => some checksum.toNat | _ => none

def unknownFlc (protect reserved : Bool) (opcode : BitVec 6) (feature_set : BitVec 8) (last : FlcUnknownEnd) : FullLinkControl where
  protect_flag := protect
  reserved := reserved
  full_link_control_opcode := resolveEnum _ opcode.toNat
  feature_set_id := resolveEnum _ feature_set.toNat
  specific_data := none
  crc_checksum := match last with | .crc crc _ _ | .both crc _ _ _ _ => some crc.val | .cs5 .. => none
  cs5_checksum := match last with | .both _ checksum _ _ _ | .cs5 checksum _ _ _ => some checksum.toNat | .crc .. => none

/-! ### Data header -/

/-- What a data header can say (before its CRC). -/
inductive Header
  | udt (group response : Bool) (reserved1 : BitVec 2) (sap udt_format : BitVec 4) (destination source : BitVec 24)
      (pad_nibble : BitVec 5) (reserved2 : Bool) (appended_blocks : BitVec 2) (supplementary protect : Bool) (opcode : BitVec 6)
  | response (reserved1 response : Bool) (reserved2 : BitVec 2) (sap reserved3 : BitVec 4) (destination source : BitVec 24)
      (full : Bool) (blocks : BitVec 7) (cls : BitVec 2) (type status : BitVec 3)
  | unconfirmed (group response reserved1 pad_msb : Bool) (sap pad : BitVec 4) (destination source : BitVec 24)
      (full : Bool) (blocks : BitVec 7) (reserved2 fragment : BitVec 4)
  | confirmed (group response reserved1 pad_msb : Bool) (sap pad : BitVec 4) (destination source : BitVec 24)
      (full : Bool) (blocks : BitVec 7) (resynchronize : Bool) (sequence : BitVec 3) (fragment : BitVec 4)
  | shortDefined (group response : Bool) (appended_msb : BitVec 2) (sap appended_lsb : BitVec 4) (destination source : BitVec 24)
      (defined : BitVec 6) (sarq full : Bool) (padding : BitVec 8)
  | shortStatus (group response : Bool) (appended_msb : BitVec 2) (sap appended_lsb : BitVec 4) (destination source : BitVec 24)
      (source_port destination_port : BitVec 3) (status : BitVec 10)
  | proprietary (sap : BitVec 4) (mfid : BitVec 8) (data : Octets 8)
  /-- any other format: 4 bits, the format, 9 octets -/
  | other (skip : BitVec 4) (format : BitVec 4) (data : Octets 9) (h : format.toNat ∉ [0, 1, 2, 3, 13, 14, 15])

def Header.flds : Header → List Fld
  | udt group wanted reserved1 sap udt_format destination source pad_nibble reserved2 appended_blocks supplementary protect
      opcode =>
    f[group, wanted, reserved1, 0#4, sap, udt_format, destination, source, pad_nibble, reserved2, appended_blocks,
      supplementary, protect, opcode]
  | response reserved1 wanted reserved2 sap reserved3 destination source full blocks cls type status =>
    f[reserved1, wanted, reserved2, 1#4, sap, reserved3, destination, source, full, blocks, cls, type, status]
  | unconfirmed group wanted reserved1 pad_msb sap pad destination source full blocks reserved2 fragment =>
    f[group, wanted, reserved1, pad_msb, 2#4, sap, pad, destination, source, full, blocks, reserved2, fragment]
  | confirmed group wanted reserved1 pad_msb sap pad destination source full blocks resynchronize sequence fragment =>
    f[group, wanted, reserved1, pad_msb, 3#4, sap, pad, destination, source, full, blocks, resynchronize, sequence, fragment]
  | shortDefined group wanted appended_msb sap appended_lsb destination source defined sarq full padding =>
    f[group, wanted, appended_msb, 13#4, sap, appended_lsb, destination, source, defined, sarq, full, padding]
  | shortStatus group wanted appended_msb sap appended_lsb destination source source_port destination_port status =>
    f[group, wanted, appended_msb, 14#4, sap, appended_lsb, destination, source, source_port, destination_port, status]
  | proprietary sap mfid data => f[sap, 15#4, mfid, data]
  | other skip format data _ => f[skip, format, data]

/-- The octets of a data header: what it says, and two octets of CRC. -/
def Header.bytes (msg : Header) (crc : Octets 2) : Bytes := pack msg.flds ++ crc.val

def Header.obj (crc : Octets 2) : Header → DmrDataHeader.DataUnion
  | udt group wanted reserved1 sap udt_format destination source pad_nibble reserved2 appended_blocks supplementary protect
      opcode => .dataHeaderUdt
      { llid_destination_is_group := group, response_requested := wanted, reserved1 := reserved1.toNat,
        format := resolveEnum _ 0, sap_identifier := resolveEnum _ sap.toNat, udt_format := resolveEnum _ udt_format.toNat,
        llid_destination := destination.toNat, llid_source := source.toNat, pad_nibble := pad_nibble.toNat, reserved2,
        appended_blocks := appended_blocks.toNat, supplementary_flag := supplementary, protect_flag := protect,
        udt_opcode := resolveEnum _ opcode.toNat, crc := crc.val }
  | response reserved1 wanted reserved2 sap reserved3 destination source full blocks cls type status => .dataHeaderResponse
      { reserved1, response_requested := wanted, reserved2 := reserved2.toNat, format := resolveEnum _ 1,
        sap_identifier := resolveEnum _ sap.toNat, reserved3 := reserved3.toNat, llid_destination := destination.toNat,
        llid_source := source.toNat, full_message_flag := full, blocks_to_follow := blocks.toNat,
        response_class := resolveEnum _ cls.toNat, response_type := type.toNat, response_status := status.toNat, crc := crc.val }
  | unconfirmed group wanted reserved1 pad_msb sap pad destination source full blocks reserved2 fragment => .dataHeaderUnconfirmed
      { llid_destination_is_group := group, response_requested := wanted, reserved1, pad_octet_count_msb := pad_msb,
        format := resolveEnum _ 2, sap_identifier := resolveEnum _ sap.toNat, pad_octet_count := pad.toNat,
        llid_destination := destination.toNat, llid_source := source.toNat, full_message_flag := full,
        blocks_to_follow := blocks.toNat, reserved2 := reserved2.toNat, fragment_sequence_number := fragment.toNat, crc := crc.val }
  | confirmed group wanted reserved1 pad_msb sap pad destination source full blocks resynchronize sequence fragment =>
    .dataHeaderConfirmed
      { llid_destination_is_group := group, response_requested := wanted, reserved1, pad_octet_count_msb := pad_msb,
        format := resolveEnum _ 3, sap_identifier := resolveEnum _ sap.toNat, pad_octet_count := pad.toNat,
        llid_destination := destination.toNat, llid_source := source.toNat, full_message_flag := full,
        blocks_to_follow := blocks.toNat, resynchronize_flag := resynchronize, send_sequence_number := sequence.toNat,
        fragment_sequence_number := fragment.toNat, crc := crc.val }
  | shortDefined group wanted appended_msb sap appended_lsb destination source defined sarq full padding =>
    .dataHeaderShortDefined
      { llid_destination_is_group := group, response_requested := wanted, appended_blocks_msb := appended_msb.toNat,
        format := resolveEnum _ 13, sap_identifier := resolveEnum _ sap.toNat, appended_blocks_lsb := appended_lsb.toNat,
        llid_destination := destination.toNat, llid_source := source.toNat, defined_data := resolveEnum _ defined.toNat,
        selective_automatic_repeat_request := sarq, full_message_flag := full, bit_padding := padding.toNat, crc := crc.val }
  | shortStatus group wanted appended_msb sap appended_lsb destination source source_port destination_port status =>
    .dataHeaderShortStatusPrecoded
      { llid_destination_is_group := group, response_requested := wanted, appended_blocks_msb := appended_msb.toNat,
        format := resolveEnum _ 14, sap_identifier := resolveEnum _ sap.toNat, appended_blocks_lsb := appended_lsb.toNat,
        llid_destination := destination.toNat, llid_source := source.toNat, source_port := source_port.toNat,
        destination_port := destination_port.toNat, status_precoded := status.toNat, crc := crc.val }
  | proprietary sap mfid data => .dataHeaderProprietary
      { sap_identifier := resolveEnum _ sap.toNat, format := resolveEnum _ 15, mfid := mfid.toNat, proprietary_data := data.val,
        crc := crc.val }
  | other skip format data _ => .dataHeaderUndefined ⟨pack f[skip, format, data] ++ crc.val⟩

/-! ### Compressed UDP/IPv4 header -/

/-- A port: its identifier, or 0 and then the number in an extended header. -/
inductive Port
  | known (id : BitVec 7) (h : id ≠ 0)
  | extended (number : Octets 2)

def Port.id : Port → BitVec 7
  | known id _ => id
  | extended _ => 0#7

/-- The extended header. -/
def Port.extra : Port → Bytes
  | known .. => []
  | extended number => number.val

def Port.number : Port → Option Bytes
  | known .. => none
  | extended number => some number.val

/-- What a compressed header says. -/
structure Udp where
  identification : Octets 2
  source_address : BitVec 4
  destination_address : BitVec 4
  opcode_msb : Bool
  source : Port
  opcode_lsb : Bool
  destination : Port
  user_data : Bytes

def Udp.bytes (x : Udp) : Bytes :=
  pack f[x.identification, x.source_address, x.destination_address, x.opcode_msb, x.source.id, x.opcode_lsb, x.destination.id] ++
    (x.source.extra ++ (x.destination.extra ++ x.user_data))

def Udp.obj (x : Udp) : DmrIpUdp.UdpIpv4CompressedHeader where
  ipv4_identification := x.identification.val
  source_ip_address_id := resolveEnum _ x.source_address.toNat
  destination_ip_address_id := resolveEnum _ x.destination_address.toNat
  header_compression_opcode_msb := x.opcode_msb
  udp_source_port_id := resolveEnum _ x.source.id.toNat
  header_compression_opcode_lsb := x.opcode_lsb
  udp_destination_port_id := resolveEnum _ x.destination.id.toNat
  udp_source_port := x.source.number
  udp_destination_port := x.destination.number
  user_data := x.user_data

end Dmr.Wire
