import Verif.Runtime
import Verif.Model.Hytera.DataTransmitProtocol
import Verif.Model.Hytera.RadioControlProtocol
import Verif.Model.Hytera.TelemetryProtocol
import Verif.Model.Hytera.LocationProtocol
import Verif.Model.Hytera.TextMessageProtocol
import Verif.Model.Hytera.DataDeliveryStates
import Verif.Model.Hytera.RadioRegistrationService
/-
Model of okdmr/kaitai/hytera/hytera_dmr_application_protocol.py (generated by tools/py2lean.py from the Python AST;
definitions marked "hand-written" are not).
-/

namespace Dmr.Hytera

/-- okdmr/kaitai/hytera/hytera_dmr_application_protocol.py:25-32 `class MessageHeaderTypes(Enum)`. -/
inductive HyteraDmrApplicationProtocol.MessageHeaderTypes where
  | radio_control_protocol
  | location_protocol
  | text_message_protocol
  | radio_registration
  | telemetry_protocol
  | data_transmit_protocol
  | data_delivery_states
  deriving DecidableEq

/-- okdmr/kaitai/hytera/hytera_dmr_application_protocol.py:25-32 values of `MessageHeaderTypes`. -/
def HyteraDmrApplicationProtocol.MessageHeaderTypes.toNat : HyteraDmrApplicationProtocol.MessageHeaderTypes → Nat
  | .radio_control_protocol => 2
  | .location_protocol => 8
  | .text_message_protocol => 9
  | .radio_registration => 17
  | .telemetry_protocol => 18
  | .data_transmit_protocol => 19
  | .data_delivery_states => 20

/-- okdmr/kaitai/hytera/hytera_dmr_application_protocol.py:25-32 `MessageHeaderTypes` as a Python enumeration. -/
instance HyteraDmrApplicationProtocol.MessageHeaderTypes.instPyEnum : PyEnum HyteraDmrApplicationProtocol.MessageHeaderTypes where
  all := [.radio_control_protocol, .location_protocol, .text_message_protocol, .radio_registration, .telemetry_protocol, .data_transmit_protocol, .data_delivery_states]
  value := HyteraDmrApplicationProtocol.MessageHeaderTypes.toNat

/-- okdmr/kaitai/hytera/hytera_dmr_application_protocol.py:86-87 attributes of `HyteraDmrApplicationProtocol.UndefinedProtocol`. -/
structure HyteraDmrApplicationProtocol.UndefinedProtocol where
  data : Bytes
  deriving DecidableEq

/-- okdmr/kaitai/hytera/hytera_dmr_application_protocol.py:86-87 `HyteraDmrApplicationProtocol.UndefinedProtocol._read`. -/
def HyteraDmrApplicationProtocol.UndefinedProtocol.read : Rd HyteraDmrApplicationProtocol.UndefinedProtocol := do
  let data ← readBytesFull
  return { data }

/-- okdmr/kaitai/hytera/hytera_dmr_application_protocol.py:49-71 possible objects in `HyteraDmrApplicationProtocol.data`. -/
inductive HyteraDmrApplicationProtocol.DataUnion where
  | radioRegistrationService (x : RadioRegistrationService)
  | telemetryProtocol (x : TelemetryProtocol)
  | radioControlProtocol (x : RadioControlProtocol)
  | textMessageProtocol (x : TextMessageProtocol)
  | dataDeliveryStates (x : DataDeliveryStates)
  | locationProtocol (x : LocationProtocol)
  | dataTransmitProtocol (x : DataTransmitProtocol)
  deriving DecidableEq

/-- okdmr/kaitai/hytera/hytera_dmr_application_protocol.py:48-71 the `if _on == ...` chain of `HyteraDmrApplicationProtocol._read`. -/
def HyteraDmrApplicationProtocol.readData (on : EnumVal HyteraDmrApplicationProtocol.MessageHeaderTypes) : Rd (Option HyteraDmrApplicationProtocol.DataUnion) :=
  if on = .known .radio_registration then do let x ← RadioRegistrationService.read; return some (.radioRegistrationService x)
  else if on = .known .telemetry_protocol then do let x ← TelemetryProtocol.read; return some (.telemetryProtocol x)
  else if on = .known .radio_control_protocol then do let x ← RadioControlProtocol.read; return some (.radioControlProtocol x)
  else if on = .known .text_message_protocol then do let x ← TextMessageProtocol.read; return some (.textMessageProtocol x)
  else if on = .known .data_delivery_states then do let x ← DataDeliveryStates.read; return some (.dataDeliveryStates x)
  else if on = .known .location_protocol then do let x ← LocationProtocol.read; return some (.locationProtocol x)
  else if on = .known .data_transmit_protocol then do let x ← DataTransmitProtocol.read; return some (.dataTransmitProtocol x)
  else return none

/-- okdmr/kaitai/hytera/hytera_dmr_application_protocol.py:40-77 attributes of `HyteraDmrApplicationProtocol`. -/
structure HyteraDmrApplicationProtocol where
  is_reliable_message : Bool
  message_header : EnumVal HyteraDmrApplicationProtocol.MessageHeaderTypes
  data : Option HyteraDmrApplicationProtocol.DataUnion
  checksum : Nat
  message_footer : Bytes
  deriving DecidableEq

/-- okdmr/kaitai/hytera/hytera_dmr_application_protocol.py:40-77 `HyteraDmrApplicationProtocol._read`. -/
def HyteraDmrApplicationProtocol.read : Rd HyteraDmrApplicationProtocol := do
  let is_reliable_message ← readFlag
  let message_header ← asEnum HyteraDmrApplicationProtocol.MessageHeaderTypes (readBitsIntBe 7)
  alignToByte
  let data ← HyteraDmrApplicationProtocol.readData message_header
  let checksum ← readU1
  let message_footer ← readBytes 1
  validateEq message_footer [0x03] "/seq/4"
  return { is_reliable_message, message_header, data, checksum, message_footer }

end Dmr.Hytera
