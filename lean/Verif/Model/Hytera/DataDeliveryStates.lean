import Verif.Runtime
import Verif.Model.Hytera.RadioIp
/-
Model of okdmr/kaitai/hytera/data_delivery_states.py (generated by tools/py2lean.py from the Python AST;
definitions marked "hand-written" are not).
-/

namespace Dmr.Hytera

/-- okdmr/kaitai/hytera/data_delivery_states.py:19-23 `class StateTypes(Enum)`. -/
inductive DataDeliveryStates.StateTypes where
  | location_protocol_state
  | radio_registration_service_state
  | telemetry_protocol_state
  | data_transmit_protocol_state
  deriving DecidableEq

/-- okdmr/kaitai/hytera/data_delivery_states.py:19-23 values of `StateTypes`. -/
def DataDeliveryStates.StateTypes.toNat : DataDeliveryStates.StateTypes → Nat
  | .location_protocol_state => 8
  | .radio_registration_service_state => 17
  | .telemetry_protocol_state => 18
  | .data_transmit_protocol_state => 19

/-- okdmr/kaitai/hytera/data_delivery_states.py:19-23 `StateTypes` as a Python enumeration. -/
instance DataDeliveryStates.StateTypes.instPyEnum : PyEnum DataDeliveryStates.StateTypes where
  all := [.location_protocol_state, .radio_registration_service_state, .telemetry_protocol_state, .data_transmit_protocol_state]
  value := DataDeliveryStates.StateTypes.toNat

/-- okdmr/kaitai/hytera/data_delivery_states.py:25-34 `class Results(Enum)`. -/
inductive DataDeliveryStates.Results where
  | ok
  | fail
  | limited_timeout
  | no_ack
  | error_ack
  | repeater_wakeup_fail
  | tx_interrupted
  | tx_deny
  | invalid_params
  deriving DecidableEq

/-- okdmr/kaitai/hytera/data_delivery_states.py:25-34 values of `Results`. -/
def DataDeliveryStates.Results.toNat : DataDeliveryStates.Results → Nat
  | .ok => 0
  | .fail => 1
  | .limited_timeout => 4
  | .no_ack => 5
  | .error_ack => 6
  | .repeater_wakeup_fail => 7
  | .tx_interrupted => 8
  | .tx_deny => 9
  | .invalid_params => 10

/-- okdmr/kaitai/hytera/data_delivery_states.py:25-34 `Results` as a Python enumeration. -/
instance DataDeliveryStates.Results.instPyEnum : PyEnum DataDeliveryStates.Results where
  all := [.ok, .fail, .limited_timeout, .no_ack, .error_ack, .repeater_wakeup_fail, .tx_interrupted, .tx_deny, .invalid_params]
  value := DataDeliveryStates.Results.toNat

/-- okdmr/kaitai/hytera/data_delivery_states.py:42-52 attributes of `DataDeliveryStates`. -/
structure DataDeliveryStates where
  reserved : Bytes
  state_type : EnumVal DataDeliveryStates.StateTypes
  message_length : Nat
  radio_ip : RadioIp
  protocol_opcode : Nat
  result : EnumVal DataDeliveryStates.Results
  deriving DecidableEq

/-- okdmr/kaitai/hytera/data_delivery_states.py:42-52 `DataDeliveryStates._read`. -/
def DataDeliveryStates.read : Rd DataDeliveryStates := do
  let reserved ← readBytes 1
  let state_type ← asEnum DataDeliveryStates.StateTypes (readU1)
  let message_length ← readU2be
  let radio_ip ← RadioIp.read
  let protocol_opcode ← readU2be
  let result ← asEnum DataDeliveryStates.Results (readU1)
  return { reserved, state_type, message_length, radio_ip, protocol_opcode, result }

end Dmr.Hytera
