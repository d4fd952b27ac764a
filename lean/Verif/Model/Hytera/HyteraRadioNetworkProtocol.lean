import Verif.Runtime
import Verif.Model.Hytera.HyteraDmrApplicationProtocol
/-
Model of okdmr/kaitai/hytera/hytera_radio_network_protocol.py (generated by tools/py2lean.py from the Python AST;
definitions marked "hand-written" are not).
-/

namespace Dmr.Hytera

/-- okdmr/kaitai/hytera/hytera_radio_network_protocol.py:19-26 `class Opcodes(Enum)`. -/
inductive HyteraRadioNetworkProtocol.Opcodes where
  | data
  | data_ack
  | close_ack
  | close
  | reject
  | accept
  | connect
  deriving DecidableEq

/-- okdmr/kaitai/hytera/hytera_radio_network_protocol.py:19-26 values of `Opcodes`. -/
def HyteraRadioNetworkProtocol.Opcodes.toNat : HyteraRadioNetworkProtocol.Opcodes → Nat
  | .data => 0
  | .data_ack => 16
  | .close_ack => 250
  | .close => 251
  | .reject => 252
  | .accept => 253
  | .connect => 254

/-- okdmr/kaitai/hytera/hytera_radio_network_protocol.py:19-26 `Opcodes` as a Python enumeration. -/
instance HyteraRadioNetworkProtocol.Opcodes.instPyEnum : PyEnum HyteraRadioNetworkProtocol.Opcodes where
  all := [.data, .data_ack, .close_ack, .close, .reject, .accept, .connect]
  value := HyteraRadioNetworkProtocol.Opcodes.toNat

/-- okdmr/kaitai/hytera/hytera_radio_network_protocol.py:34-53 attributes of `HyteraRadioNetworkProtocol`. -/
structure HyteraRadioNetworkProtocol where
  header_identifier : Bytes
  version : Nat
  block : Nat
  opcode : EnumVal HyteraRadioNetworkProtocol.Opcodes
  source_id : Nat
  destination_id : Nat
  packet_number : Nat
  hrnp_packet_length : Nat
  checksum : Nat
  data : Option (HyteraDmrApplicationProtocol)
  deriving DecidableEq

/-- okdmr/kaitai/hytera/hytera_radio_network_protocol.py:34-53 `HyteraRadioNetworkProtocol._read`. -/
def HyteraRadioNetworkProtocol.read : Rd HyteraRadioNetworkProtocol := do
  let header_identifier ← readBytes 1
  validateEq header_identifier [0x7e] "/seq/0"
  let version ← readU1
  let block ← readU1
  let opcode ← asEnum HyteraRadioNetworkProtocol.Opcodes (readU1)
  let source_id ← readU1
  let destination_id ← readU1
  let packet_number ← readU2be
  let hrnp_packet_length ← readU2be
  let checksum ← readU2be
  let data ← optionally (decide (opcode = .known .data)) (HyteraDmrApplicationProtocol.read)
  return { header_identifier, version, block, opcode, source_id, destination_id, packet_number, hrnp_packet_length, checksum, data }

end Dmr.Hytera
