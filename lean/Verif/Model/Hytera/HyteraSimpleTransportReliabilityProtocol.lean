import Verif.Runtime
import Verif.Model.Hytera.HyteraDmrApplicationProtocol
/-
Model of okdmr/kaitai/hytera/hytera_simple_transport_reliability_protocol.py (generated by tools/py2lean.py from the Python AST;
definitions marked "hand-written" are not).
-/

namespace Dmr.Hytera

/-- okdmr/kaitai/hytera/hytera_simple_transport_reliability_protocol.py:19-22 `class OptionCommands(Enum)`. -/
inductive HyteraSimpleTransportReliabilityProtocol.OptionCommands where
  | realtime
  | device_id
  | channel_id
  deriving DecidableEq

/-- okdmr/kaitai/hytera/hytera_simple_transport_reliability_protocol.py:19-22 values of `OptionCommands`. -/
def HyteraSimpleTransportReliabilityProtocol.OptionCommands.toNat : HyteraSimpleTransportReliabilityProtocol.OptionCommands → Nat
  | .realtime => 1
  | .device_id => 3
  | .channel_id => 4

/-- okdmr/kaitai/hytera/hytera_simple_transport_reliability_protocol.py:19-22 `OptionCommands` as a Python enumeration. -/
instance HyteraSimpleTransportReliabilityProtocol.OptionCommands.instPyEnum : PyEnum HyteraSimpleTransportReliabilityProtocol.OptionCommands where
  all := [.realtime, .device_id, .channel_id]
  value := HyteraSimpleTransportReliabilityProtocol.OptionCommands.toNat

/-- okdmr/kaitai/hytera/hytera_simple_transport_reliability_protocol.py:88-96 attributes of `HyteraSimpleTransportReliabilityProtocol.Option`. -/
structure HyteraSimpleTransportReliabilityProtocol.Option where
  expect_more_options : Bool
  command : EnumVal HyteraSimpleTransportReliabilityProtocol.OptionCommands
  len_option_payload : Nat
  option_payload : Bytes
  deriving DecidableEq

/-- okdmr/kaitai/hytera/hytera_simple_transport_reliability_protocol.py:88-96 `HyteraSimpleTransportReliabilityProtocol.Option._read`. -/
def HyteraSimpleTransportReliabilityProtocol.Option.read : Rd HyteraSimpleTransportReliabilityProtocol.Option := do
  let expect_more_options ← readFlag
  let command ← asEnum HyteraSimpleTransportReliabilityProtocol.OptionCommands (readBitsIntBe 7)
  alignToByte
  let len_option_payload ← readU1
  let option_payload ← readBytes len_option_payload
  return { expect_more_options, command, len_option_payload, option_payload }

/-- okdmr/kaitai/hytera/hytera_simple_transport_reliability_protocol.py:30-79 attributes of `HyteraSimpleTransportReliabilityProtocol`. -/
structure HyteraSimpleTransportReliabilityProtocol where
  header : Bytes
  version : Nat
  reserved : Nat
  has_option : Bool
  is_reject : Bool
  is_close : Bool
  is_connect : Bool
  is_heartbeat : Bool
  is_ack : Bool
  sequence_number : Nat
  options : Option (List (HyteraSimpleTransportReliabilityProtocol.Option))
  data : Option (List (HyteraDmrApplicationProtocol))
  extra_data : Option (Bytes)
  deriving DecidableEq

/-- okdmr/kaitai/hytera/hytera_simple_transport_reliability_protocol.py:30-79 `HyteraSimpleTransportReliabilityProtocol._read`. -/
def HyteraSimpleTransportReliabilityProtocol.read : Rd HyteraSimpleTransportReliabilityProtocol := do
  let header ← readBytes 2
  validateEq header [0x32, 0x42] "/seq/0"
  let version ← readU1
  let reserved ← readBitsIntBe 2
  let has_option ← readFlag
  let is_reject ← readFlag
  let is_close ← readFlag
  let is_connect ← readFlag
  let is_heartbeat ← readFlag
  let is_ack ← readFlag
  alignToByte
  let sequence_number ← readU2be
  let eof1 ← isEof
  let fuel ← loopFuel
  let options ← optionally ((!(eof1)) && (!(is_heartbeat)) && (has_option)) (repeatUntil fuel (HyteraSimpleTransportReliabilityProtocol.Option.read) (fun x => do return !(x.expect_more_options)))
  let eof2 ← isEof
  let fuel ← loopFuel
  let data ← optionally ((!(eof2)) && (!(is_reject)) && (!(is_close)) && (!(is_connect))) (repeatEos fuel (HyteraDmrApplicationProtocol.read))
  let eof3 ← isEof
  let extra_data ← optionally (!(eof3)) (readBytesFull)
  return { header, version, reserved, has_option, is_reject, is_close, is_connect, is_heartbeat, is_ack, sequence_number, options, data, extra_data }

end Dmr.Hytera
