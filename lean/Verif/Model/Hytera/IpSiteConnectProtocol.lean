import Verif.Runtime
/-
Model of okdmr/kaitai/hytera/ip_site_connect_protocol.py (generated by tools/py2lean.py from the Python AST;
definitions marked "hand-written" are not).
-/

namespace Dmr.Hytera

/-- okdmr/kaitai/hytera/ip_site_connect_protocol.py:18-22 `class PacketTypes(Enum)`. -/
inductive IpSiteConnectProtocol.PacketTypes where
  | pi_header
  | a
  | b
  | terminator
  deriving DecidableEq

/-- okdmr/kaitai/hytera/ip_site_connect_protocol.py:18-22 values of `PacketTypes`. -/
def IpSiteConnectProtocol.PacketTypes.toNat : IpSiteConnectProtocol.PacketTypes → Nat
  | .pi_header => 1
  | .a => 65
  | .b => 66
  | .terminator => 67

/-- okdmr/kaitai/hytera/ip_site_connect_protocol.py:18-22 `PacketTypes` as a Python enumeration. -/
instance IpSiteConnectProtocol.PacketTypes.instPyEnum : PyEnum IpSiteConnectProtocol.PacketTypes where
  all := [.pi_header, .a, .b, .terminator]
  value := IpSiteConnectProtocol.PacketTypes.toNat

/-- okdmr/kaitai/hytera/ip_site_connect_protocol.py:24-30 `class FrameTypes(Enum)`. -/
inductive IpSiteConnectProtocol.FrameTypes where
  | frame_type_data
  | frame_type_voice_sync
  | frame_type_data_sync_or_csbk
  | frame_type_data_header
  | frame_type_voice
  | frame_type_sync
  deriving DecidableEq

/-- okdmr/kaitai/hytera/ip_site_connect_protocol.py:24-30 values of `FrameTypes`. -/
def IpSiteConnectProtocol.FrameTypes.toNat : IpSiteConnectProtocol.FrameTypes → Nat
  | .frame_type_data => 0
  | .frame_type_voice_sync => 4369
  | .frame_type_data_sync_or_csbk => 13107
  | .frame_type_data_header => 26214
  | .frame_type_voice => 48059
  | .frame_type_sync => 61166

/-- okdmr/kaitai/hytera/ip_site_connect_protocol.py:24-30 `FrameTypes` as a Python enumeration. -/
instance IpSiteConnectProtocol.FrameTypes.instPyEnum : PyEnum IpSiteConnectProtocol.FrameTypes where
  all := [.frame_type_data, .frame_type_voice_sync, .frame_type_data_sync_or_csbk, .frame_type_data_header, .frame_type_voice, .frame_type_sync]
  value := IpSiteConnectProtocol.FrameTypes.toNat

/-- okdmr/kaitai/hytera/ip_site_connect_protocol.py:32-36 `class CallTypes(Enum)`. -/
inductive IpSiteConnectProtocol.CallTypes where
  | private_call
  | group_call
  | wakeup_call_2
  | wakeup_call_c
  deriving DecidableEq

/-- okdmr/kaitai/hytera/ip_site_connect_protocol.py:32-36 values of `CallTypes`. -/
def IpSiteConnectProtocol.CallTypes.toNat : IpSiteConnectProtocol.CallTypes → Nat
  | .private_call => 0
  | .group_call => 1
  | .wakeup_call_2 => 2
  | .wakeup_call_c => 12

/-- okdmr/kaitai/hytera/ip_site_connect_protocol.py:32-36 `CallTypes` as a Python enumeration. -/
instance IpSiteConnectProtocol.CallTypes.instPyEnum : PyEnum IpSiteConnectProtocol.CallTypes where
  all := [.private_call, .group_call, .wakeup_call_2, .wakeup_call_c]
  value := IpSiteConnectProtocol.CallTypes.toNat

/-- okdmr/kaitai/hytera/ip_site_connect_protocol.py:38-53 `class SlotTypes(Enum)`. -/
inductive IpSiteConnectProtocol.SlotTypes where
  | slot_type_privacy_indicator
  | slot_type_voice_lc_header
  | slot_type_terminator_with_lc
  | slot_type_csbk
  | slot_type_data_header
  | slot_type_rate_12_data
  | slot_type_rate_34_data
  | slot_type_data_a
  | slot_type_data_b
  | slot_type_data_c
  | slot_type_data_d
  | slot_type_data_e
  | slot_type_data_f
  | slot_type_wakeup_request
  | slot_type_sync
  deriving DecidableEq

/-- okdmr/kaitai/hytera/ip_site_connect_protocol.py:38-53 values of `SlotTypes`. -/
def IpSiteConnectProtocol.SlotTypes.toNat : IpSiteConnectProtocol.SlotTypes → Nat
  | .slot_type_privacy_indicator => 0
  | .slot_type_voice_lc_header => 4369
  | .slot_type_terminator_with_lc => 8738
  | .slot_type_csbk => 13107
  | .slot_type_data_header => 17476
  | .slot_type_rate_12_data => 21845
  | .slot_type_rate_34_data => 26214
  | .slot_type_data_a => 30583
  | .slot_type_data_b => 34952
  | .slot_type_data_c => 39321
  | .slot_type_data_d => 43690
  | .slot_type_data_e => 48059
  | .slot_type_data_f => 52428
  | .slot_type_wakeup_request => 56797
  | .slot_type_sync => 61166

/-- okdmr/kaitai/hytera/ip_site_connect_protocol.py:38-53 `SlotTypes` as a Python enumeration. -/
instance IpSiteConnectProtocol.SlotTypes.instPyEnum : PyEnum IpSiteConnectProtocol.SlotTypes where
  all := [.slot_type_privacy_indicator, .slot_type_voice_lc_header, .slot_type_terminator_with_lc, .slot_type_csbk, .slot_type_data_header, .slot_type_rate_12_data, .slot_type_rate_34_data, .slot_type_data_a, .slot_type_data_b, .slot_type_data_c, .slot_type_data_d, .slot_type_data_e, .slot_type_data_f, .slot_type_wakeup_request, .slot_type_sync]
  value := IpSiteConnectProtocol.SlotTypes.toNat

/-- okdmr/kaitai/hytera/ip_site_connect_protocol.py:55-57 `class Timeslots(Enum)`. -/
inductive IpSiteConnectProtocol.Timeslots where
  | timeslot_1
  | timeslot_2
  deriving DecidableEq

/-- okdmr/kaitai/hytera/ip_site_connect_protocol.py:55-57 values of `Timeslots`. -/
def IpSiteConnectProtocol.Timeslots.toNat : IpSiteConnectProtocol.Timeslots → Nat
  | .timeslot_1 => 4369
  | .timeslot_2 => 8738

/-- okdmr/kaitai/hytera/ip_site_connect_protocol.py:55-57 `Timeslots` as a Python enumeration. -/
instance IpSiteConnectProtocol.Timeslots.instPyEnum : PyEnum IpSiteConnectProtocol.Timeslots where
  all := [.timeslot_1, .timeslot_2]
  value := IpSiteConnectProtocol.Timeslots.toNat

/-- okdmr/kaitai/hytera/ip_site_connect_protocol.py:65-98 attributes of `IpSiteConnectProtocol`. -/
structure IpSiteConnectProtocol where
  source_port : Bytes
  fixed_header : Bytes
  sequence_number : Nat
  reserved_3 : Bytes
  packet_type : EnumVal IpSiteConnectProtocol.PacketTypes
  reserved_7a : Bytes
  timeslot_raw : EnumVal IpSiteConnectProtocol.Timeslots
  slot_type : EnumVal IpSiteConnectProtocol.SlotTypes
  color_code_raw : Nat
  frame_type : EnumVal IpSiteConnectProtocol.FrameTypes
  reserved_2a : Bytes
  ipsc_payload : Bytes
  reserved_2b : Bytes
  call_type : EnumVal IpSiteConnectProtocol.CallTypes
  destination_radio_id_raw : Nat
  source_radio_id_raw : Nat
  reserved_1b : Nat
  extra_data : Option (Bytes)
  deriving DecidableEq

/-- okdmr/kaitai/hytera/ip_site_connect_protocol.py:65-98 `IpSiteConnectProtocol._read`. -/
def IpSiteConnectProtocol.read : Rd IpSiteConnectProtocol := do
  let source_port ← readBytes 2
  let fixed_header ← readBytes 2
  validateEq fixed_header [0x5a, 0x5a] "/seq/1"
  let sequence_number ← readU1
  let reserved_3 ← readBytes 3
  let packet_type ← asEnum IpSiteConnectProtocol.PacketTypes (readU1)
  let reserved_7a ← readBytes 7
  let timeslot_raw ← asEnum IpSiteConnectProtocol.Timeslots (readU2be)
  let slot_type ← asEnum IpSiteConnectProtocol.SlotTypes (readU2be)
  let color_code_raw ← readU2le
  let frame_type ← asEnum IpSiteConnectProtocol.FrameTypes (readU2be)
  let reserved_2a ← readBytes 2
  let ipsc_payload ← readBytes 34
  let reserved_2b ← readBytes 2
  let call_type ← asEnum IpSiteConnectProtocol.CallTypes (readU1)
  let destination_radio_id_raw ← readU4le
  let source_radio_id_raw ← readU4le
  let reserved_1b ← readU1
  let eof1 ← isEof
  let extra_data ← optionally (!(eof1)) (readBytesFull)
  return { source_port, fixed_header, sequence_number, reserved_3, packet_type, reserved_7a, timeslot_raw, slot_type, color_code_raw, frame_type, reserved_2a, ipsc_payload, reserved_2b, call_type, destination_radio_id_raw, source_radio_id_raw, reserved_1b, extra_data }

/-- okdmr/kaitai/hytera/ip_site_connect_protocol.py:100-106 right-hand side of property `source_radio_id`
(hand-written; caching is modelled in `Verif/Model/Lazy.lean`). -/
def IpSiteConnectProtocol.source_radio_id (o : IpSiteConnectProtocol) : Nat := o.source_radio_id_raw >>> 8

/-- okdmr/kaitai/hytera/ip_site_connect_protocol.py:108-114 right-hand side of property
`destination_radio_id` (hand-written). -/
def IpSiteConnectProtocol.destination_radio_id (o : IpSiteConnectProtocol) : Nat :=
  o.destination_radio_id_raw >>> 8

/-- okdmr/kaitai/hytera/ip_site_connect_protocol.py:116-122 right-hand side of property `color_code`
(hand-written). -/
def IpSiteConnectProtocol.color_code (o : IpSiteConnectProtocol) : Nat := o.color_code_raw &&& 15

/-- okdmr/kaitai/hytera/ip_site_connect_protocol.py:124-137 right-hand side of property `is_wakeup`
(hand-written). -/
def IpSiteConnectProtocol.is_wakeup (o : IpSiteConnectProtocol) : Bool :=
  decide (o.call_type = .known .wakeup_call_2) || decide (o.call_type = .known .wakeup_call_c)
    || decide (o.slot_type = .known .slot_type_wakeup_request)

end Dmr.Hytera
