/-- okdmr/kaitai/hytera/telemetry_protocol.py:66-85 possible objects in `TelemetryProtocol.data`. -/
inductive TelemetryProtocol.DataUnion where
  | standardStatusRequest (x : TelemetryProtocol.StandardStatusRequest)
  | remoteControlAnswer (x : TelemetryProtocol.RemoteControlAnswer)
  | extendedStatusReport (x : TelemetryProtocol.ExtendedStatusReport)
  | remoteControlRequest (x : TelemetryProtocol.RemoteControlRequest)
  | standardStatusReport (x : TelemetryProtocol.StandardStatusReport)
  deriving DecidableEq

/-- okdmr/kaitai/hytera/telemetry_protocol.py:59-85 attributes of `TelemetryProtocol` (hand-written).
`m_specific_service` is the cached property value `_m_specific_service`, which `_read` always computes. -/
structure TelemetryProtocol where
  service_type_opcode : EnumVal TelemetryProtocol.ServiceTypes
  specific_service_opcode : Nat
  message_length : Nat
  m_specific_service : EnumVal TelemetryProtocol.ServiceSpecificTypes
  data : Option TelemetryProtocol.DataUnion
  deriving DecidableEq

/-- okdmr/kaitai/hytera/telemetry_protocol.py:203-214 property `specific_service` on its first access
(hand-written): it reads at offset 0 of the stream, whatever precedes the message there. -/
def TelemetryProtocol.computeSpecificService : Rd (EnumVal TelemetryProtocol.ServiceSpecificTypes) := do
  let pos ← posIo
  seekIo 0
  let v ← asEnum TelemetryProtocol.ServiceSpecificTypes readU2be
  seekIo pos
  return v

/-- okdmr/kaitai/hytera/telemetry_protocol.py:66-85 the `if _on == ...` chain of `TelemetryProtocol._read` (hand-written). -/
def TelemetryProtocol.readData (on : EnumVal TelemetryProtocol.ServiceSpecificTypes) : Rd (Option TelemetryProtocol.DataUnion) :=
  if on = .known .standard_status_request then do let x ← TelemetryProtocol.StandardStatusRequest.read; return some (.standardStatusRequest x)
  else if on = .known .remote_control_answer then do let x ← TelemetryProtocol.RemoteControlAnswer.read; return some (.remoteControlAnswer x)
  else if on = .known .extended_status_report then do let x ← TelemetryProtocol.ExtendedStatusReport.read; return some (.extendedStatusReport x)
  else if on = .known .remote_control_request then do let x ← TelemetryProtocol.RemoteControlRequest.read; return some (.remoteControlRequest x)
  else if on = .known .standard_status_report then do let x ← TelemetryProtocol.StandardStatusReport.read; return some (.standardStatusReport x)
  else return none

/-- okdmr/kaitai/hytera/telemetry_protocol.py:59-85 `TelemetryProtocol._read` (hand-written). -/
def TelemetryProtocol.read : Rd TelemetryProtocol := do
  let service_type_opcode ← asEnum TelemetryProtocol.ServiceTypes (readU1)
  let specific_service_opcode ← readU1
  let message_length ← readU2be
  let m_specific_service ← TelemetryProtocol.computeSpecificService
  let data ← TelemetryProtocol.readData m_specific_service
  return { service_type_opcode, specific_service_opcode, message_length, m_specific_service, data }
