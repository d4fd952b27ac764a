import Verif.Runtime
import Verif.Model.Hytera.RadioId
/-
Model of okdmr/kaitai/hytera/real_time_transport_protocol.py (generated by tools/py2lean.py from the Python AST;
definitions marked "hand-written" are not).
-/

namespace Dmr.Hytera

/-- okdmr/kaitai/hytera/real_time_transport_protocol.py:20-22 `class RtpPayloadTypes(Enum)`. -/
inductive RealTimeTransportProtocol.RtpPayloadTypes where
  | mu_law
  | a_law
  deriving DecidableEq

/-- okdmr/kaitai/hytera/real_time_transport_protocol.py:20-22 values of `RtpPayloadTypes`. -/
def RealTimeTransportProtocol.RtpPayloadTypes.toNat : RealTimeTransportProtocol.RtpPayloadTypes → Nat
  | .mu_law => 0
  | .a_law => 8

/-- okdmr/kaitai/hytera/real_time_transport_protocol.py:20-22 `RtpPayloadTypes` as a Python enumeration. -/
instance RealTimeTransportProtocol.RtpPayloadTypes.instPyEnum : PyEnum RealTimeTransportProtocol.RtpPayloadTypes where
  all := [.mu_law, .a_law]
  value := RealTimeTransportProtocol.RtpPayloadTypes.toNat

/-- okdmr/kaitai/hytera/real_time_transport_protocol.py:24-27 `class CallTypes(Enum)`. -/
inductive RealTimeTransportProtocol.CallTypes where
  | private_call
  | group_call
  | all_call
  deriving DecidableEq

/-- okdmr/kaitai/hytera/real_time_transport_protocol.py:24-27 values of `CallTypes`. -/
def RealTimeTransportProtocol.CallTypes.toNat : RealTimeTransportProtocol.CallTypes → Nat
  | .private_call => 0
  | .group_call => 1
  | .all_call => 2

/-- okdmr/kaitai/hytera/real_time_transport_protocol.py:24-27 `CallTypes` as a Python enumeration. -/
instance RealTimeTransportProtocol.CallTypes.instPyEnum : PyEnum RealTimeTransportProtocol.CallTypes where
  all := [.private_call, .group_call, .all_call]
  value := RealTimeTransportProtocol.CallTypes.toNat

/-- okdmr/kaitai/hytera/real_time_transport_protocol.py:57-74 attributes of `RealTimeTransportProtocol.FixedHeader`. -/
structure RealTimeTransportProtocol.FixedHeader where
  version : Nat
  padding : Bool
  extension : Bool
  num_csrc : Nat
  marker : Bool
  payload_type : Nat
  sequence_number : Nat
  timestamp : Nat
  ssrc : Nat
  csrc : List (Nat)
  deriving DecidableEq

/-- okdmr/kaitai/hytera/real_time_transport_protocol.py:57-74 `RealTimeTransportProtocol.FixedHeader._read`. -/
def RealTimeTransportProtocol.FixedHeader.read : Rd RealTimeTransportProtocol.FixedHeader := do
  let version ← readBitsIntBe 2
  validateEq version 2 "/types/fixed_header/seq/0"
  let padding ← readFlag
  let extension ← readFlag
  let num_csrc ← readBitsIntBe 4
  let marker ← readFlag
  let payload_type ← readBitsIntBe 7
  alignToByte
  let sequence_number ← readU2be
  let timestamp ← readU4be
  let ssrc ← readU4be
  let csrc ← repeatN num_csrc (readU4be)
  return { version, padding, extension, num_csrc, marker, payload_type, sequence_number, timestamp, ssrc, csrc }

/-- okdmr/kaitai/hytera/real_time_transport_protocol.py:83-94 attributes of `RealTimeTransportProtocol.HeaderExtension`. -/
structure RealTimeTransportProtocol.HeaderExtension where
  header_identifier : Nat
  length : Nat
  slot : Nat
  last_flag : Bool
  source_id : RadioId
  destination_id : RadioId
  call_type : EnumVal RealTimeTransportProtocol.CallTypes
  reserved : Bytes
  deriving DecidableEq

/-- okdmr/kaitai/hytera/real_time_transport_protocol.py:83-94 `RealTimeTransportProtocol.HeaderExtension._read`. -/
def RealTimeTransportProtocol.HeaderExtension.read : Rd RealTimeTransportProtocol.HeaderExtension := do
  let header_identifier ← readU2be
  let length ← readU2be
  let slot ← readBitsIntBe 7
  let last_flag ← readFlag
  alignToByte
  let source_id ← RadioId.read
  let destination_id ← RadioId.read
  let call_type ← asEnum RealTimeTransportProtocol.CallTypes (readU1)
  let reserved ← readBytes 4
  return { header_identifier, length, slot, last_flag, source_id, destination_id, call_type, reserved }

/-- okdmr/kaitai/hytera/real_time_transport_protocol.py:35-48 attributes of `RealTimeTransportProtocol`
(hand-written). `m_len_padding` is the cached property `_m_len_padding`, which `_read` always computes
(`_m_len_padding_if_exists` is the same number when the padding flag is set, absent otherwise). -/
structure RealTimeTransportProtocol where
  fixed_header : RealTimeTransportProtocol.FixedHeader
  header_extension : Option (RealTimeTransportProtocol.HeaderExtension)
  audio_data : Bytes
  m_len_padding : Nat
  padding : Option (Bytes)
  deriving DecidableEq

/-- okdmr/kaitai/hytera/real_time_transport_protocol.py:96-107 property `len_padding_if_exists` on its first
access (hand-written). `seek(size - 1)` is only reached with a 12 byte header read, so `size - 1` is not negative. -/
def RealTimeTransportProtocol.lenPaddingIfExists (h : RealTimeTransportProtocol.FixedHeader) : Rd (Option Nat) :=
  optionally h.padding (do
    let pos ← posIo
    let size ← sizeIo
    seekIo (size - 1)
    let v ← readU1
    seekIo pos
    return v)

/-- okdmr/kaitai/hytera/real_time_transport_protocol.py:109-117 property `len_padding` on its first access
(hand-written). Adding or subtracting `None` would be a TypeError; it is unreachable. -/
def RealTimeTransportProtocol.lenPadding (h : RealTimeTransportProtocol.FixedHeader) : Rd Nat := do
  if h.padding then
    let v ← RealTimeTransportProtocol.lenPaddingIfExists h
    return v.getD 0
  else return 0

/-- okdmr/kaitai/hytera/real_time_transport_protocol.py:35-48 `RealTimeTransportProtocol._read`
(hand-written). -/
def RealTimeTransportProtocol.read : Rd RealTimeTransportProtocol := do
  let fixed_header ← RealTimeTransportProtocol.FixedHeader.read
  let header_extension ← optionally (fixed_header.extension) (RealTimeTransportProtocol.HeaderExtension.read)
  let io_size ← sizeIo
  let io_pos ← posIo
  let m_len_padding ← RealTimeTransportProtocol.lenPadding fixed_header
  let audio_data ← readBytesInt ((((io_size : Int) - (io_pos : Int))) - (m_len_padding : Int))
  let padding ← optionally (fixed_header.padding) (readBytes m_len_padding)
  return { fixed_header, header_extension, audio_data, m_len_padding, padding }

end Dmr.Hytera
