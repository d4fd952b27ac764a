import Verif.Runtime
import Verif.Model.Hytera.RadioIp
/-
Model of okdmr/kaitai/hytera/telemetry_protocol.py (generated by tools/py2lean.py from the Python AST;
definitions marked "hand-written" are not).
-/

namespace Dmr.Hytera

/-- okdmr/kaitai/hytera/telemetry_protocol.py:19-21 `class ServiceTypes(Enum)`. -/
inductive TelemetryProtocol.ServiceTypes where
  | status_report_service
  | remote_control_service
  deriving DecidableEq

/-- okdmr/kaitai/hytera/telemetry_protocol.py:19-21 values of `ServiceTypes`. -/
def TelemetryProtocol.ServiceTypes.toNat : TelemetryProtocol.ServiceTypes → Nat
  | .status_report_service => 160
  | .remote_control_service => 176

/-- okdmr/kaitai/hytera/telemetry_protocol.py:19-21 `ServiceTypes` as a Python enumeration. -/
instance TelemetryProtocol.ServiceTypes.instPyEnum : PyEnum TelemetryProtocol.ServiceTypes where
  all := [.status_report_service, .remote_control_service]
  value := TelemetryProtocol.ServiceTypes.toNat

/-- okdmr/kaitai/hytera/telemetry_protocol.py:23-25 `class ResultTypes(Enum)`. -/
inductive TelemetryProtocol.ResultTypes where
  | effective
  | ineffective
  deriving DecidableEq

/-- okdmr/kaitai/hytera/telemetry_protocol.py:23-25 values of `ResultTypes`. -/
def TelemetryProtocol.ResultTypes.toNat : TelemetryProtocol.ResultTypes → Nat
  | .effective => 0
  | .ineffective => 1

/-- okdmr/kaitai/hytera/telemetry_protocol.py:23-25 `ResultTypes` as a Python enumeration. -/
instance TelemetryProtocol.ResultTypes.instPyEnum : PyEnum TelemetryProtocol.ResultTypes where
  all := [.effective, .ineffective]
  value := TelemetryProtocol.ResultTypes.toNat

/-- okdmr/kaitai/hytera/telemetry_protocol.py:27-30 `class CallTypes(Enum)`. -/
inductive TelemetryProtocol.CallTypes where
  | private_call
  | group_call
  | all_call
  deriving DecidableEq

/-- okdmr/kaitai/hytera/telemetry_protocol.py:27-30 values of `CallTypes`. -/
def TelemetryProtocol.CallTypes.toNat : TelemetryProtocol.CallTypes → Nat
  | .private_call => 0
  | .group_call => 1
  | .all_call => 2

/-- okdmr/kaitai/hytera/telemetry_protocol.py:27-30 `CallTypes` as a Python enumeration. -/
instance TelemetryProtocol.CallTypes.instPyEnum : PyEnum TelemetryProtocol.CallTypes where
  all := [.private_call, .group_call, .all_call]
  value := TelemetryProtocol.CallTypes.toNat

/-- okdmr/kaitai/hytera/telemetry_protocol.py:32-36 `class OperationTypes(Enum)`. -/
inductive TelemetryProtocol.OperationTypes where
  | set_ineffective_level
  | set_effective_level
  | reverse_level
  | output_one_pulse
  deriving DecidableEq

/-- okdmr/kaitai/hytera/telemetry_protocol.py:32-36 values of `OperationTypes`. -/
def TelemetryProtocol.OperationTypes.toNat : TelemetryProtocol.OperationTypes → Nat
  | .set_ineffective_level => 0
  | .set_effective_level => 1
  | .reverse_level => 2
  | .output_one_pulse => 3

/-- okdmr/kaitai/hytera/telemetry_protocol.py:32-36 `OperationTypes` as a Python enumeration. -/
instance TelemetryProtocol.OperationTypes.instPyEnum : PyEnum TelemetryProtocol.OperationTypes where
  all := [.set_ineffective_level, .set_effective_level, .reverse_level, .output_one_pulse]
  value := TelemetryProtocol.OperationTypes.toNat

/-- okdmr/kaitai/hytera/telemetry_protocol.py:38-40 `class PcFlagTypes(Enum)`. -/
inductive TelemetryProtocol.PcFlagTypes where
  | controller_is_radio
  | controller_is_telemetry_application
  deriving DecidableEq

/-- okdmr/kaitai/hytera/telemetry_protocol.py:38-40 values of `PcFlagTypes`. -/
def TelemetryProtocol.PcFlagTypes.toNat : TelemetryProtocol.PcFlagTypes → Nat
  | .controller_is_radio => 0
  | .controller_is_telemetry_application => 1

/-- okdmr/kaitai/hytera/telemetry_protocol.py:38-40 `PcFlagTypes` as a Python enumeration. -/
instance TelemetryProtocol.PcFlagTypes.instPyEnum : PyEnum TelemetryProtocol.PcFlagTypes where
  all := [.controller_is_radio, .controller_is_telemetry_application]
  value := TelemetryProtocol.PcFlagTypes.toNat

/-- okdmr/kaitai/hytera/telemetry_protocol.py:42-47 `class ServiceSpecificTypes(Enum)`. -/
inductive TelemetryProtocol.ServiceSpecificTypes where
  | standard_status_request
  | standard_status_report
  | extended_status_report
  | remote_control_request
  | remote_control_answer
  deriving DecidableEq

/-- okdmr/kaitai/hytera/telemetry_protocol.py:42-47 values of `ServiceSpecificTypes`. -/
def TelemetryProtocol.ServiceSpecificTypes.toNat : TelemetryProtocol.ServiceSpecificTypes → Nat
  | .standard_status_request => 40961
  | .standard_status_report => 41089
  | .extended_status_report => 41090
  | .remote_control_request => 45057
  | .remote_control_answer => 45185

/-- okdmr/kaitai/hytera/telemetry_protocol.py:42-47 `ServiceSpecificTypes` as a Python enumeration. -/
instance TelemetryProtocol.ServiceSpecificTypes.instPyEnum : PyEnum TelemetryProtocol.ServiceSpecificTypes where
  all := [.standard_status_request, .standard_status_report, .extended_status_report, .remote_control_request, .remote_control_answer]
  value := TelemetryProtocol.ServiceSpecificTypes.toNat

/-- okdmr/kaitai/hytera/telemetry_protocol.py:49-51 `class ControlResultTypes(Enum)`. -/
inductive TelemetryProtocol.ControlResultTypes where
  | success
  | failure
  deriving DecidableEq

/-- okdmr/kaitai/hytera/telemetry_protocol.py:49-51 values of `ControlResultTypes`. -/
def TelemetryProtocol.ControlResultTypes.toNat : TelemetryProtocol.ControlResultTypes → Nat
  | .success => 0
  | .failure => 1

/-- okdmr/kaitai/hytera/telemetry_protocol.py:49-51 `ControlResultTypes` as a Python enumeration. -/
instance TelemetryProtocol.ControlResultTypes.instPyEnum : PyEnum TelemetryProtocol.ControlResultTypes where
  all := [.success, .failure]
  value := TelemetryProtocol.ControlResultTypes.toNat

/-- okdmr/kaitai/hytera/telemetry_protocol.py:94-106 attributes of `TelemetryProtocol.StandardStatusReport`. -/
structure TelemetryProtocol.StandardStatusReport where
  source_ip : RadioIp
  target_ip : RadioIp
  pc_flag : EnumVal TelemetryProtocol.PcFlagTypes
  call_type : EnumVal TelemetryProtocol.CallTypes
  vio_select : Bytes
  result : EnumVal TelemetryProtocol.ResultTypes
  deriving DecidableEq

/-- okdmr/kaitai/hytera/telemetry_protocol.py:94-106 `TelemetryProtocol.StandardStatusReport._read`. -/
def TelemetryProtocol.StandardStatusReport.read : Rd TelemetryProtocol.StandardStatusReport := do
  let source_ip ← RadioIp.read
  let target_ip ← RadioIp.read
  let pc_flag ← asEnum TelemetryProtocol.PcFlagTypes (readU1)
  let call_type ← asEnum TelemetryProtocol.CallTypes (readU1)
  let vio_select ← readBytes 1
  let result ← asEnum TelemetryProtocol.ResultTypes (readU1)
  return { source_ip, target_ip, pc_flag, call_type, vio_select, result }

/-- okdmr/kaitai/hytera/telemetry_protocol.py:115-120 attributes of `TelemetryProtocol.VioExtendedStatus`. -/
structure TelemetryProtocol.VioExtendedStatus where
  result : EnumVal TelemetryProtocol.ResultTypes
  message_length : Nat
  message : PyStr
  deriving DecidableEq

/-- okdmr/kaitai/hytera/telemetry_protocol.py:115-120 `TelemetryProtocol.VioExtendedStatus._read`. -/
def TelemetryProtocol.VioExtendedStatus.read : Rd TelemetryProtocol.VioExtendedStatus := do
  let result ← asEnum TelemetryProtocol.ResultTypes (readU1)
  let message_length ← readU2be
  let message ← decodeWith decodeUtf16le (readBytes message_length)
  return { result, message_length, message }

/-- okdmr/kaitai/hytera/telemetry_protocol.py:129-141 attributes of `TelemetryProtocol.RemoteControlAnswer`. -/
structure TelemetryProtocol.RemoteControlAnswer where
  source_ip : RadioIp
  target_ip : RadioIp
  pc_flag : EnumVal TelemetryProtocol.PcFlagTypes
  call_type : EnumVal TelemetryProtocol.CallTypes
  vio_select : Bytes
  result : EnumVal TelemetryProtocol.ControlResultTypes
  deriving DecidableEq

/-- okdmr/kaitai/hytera/telemetry_protocol.py:129-141 `TelemetryProtocol.RemoteControlAnswer._read`. -/
def TelemetryProtocol.RemoteControlAnswer.read : Rd TelemetryProtocol.RemoteControlAnswer := do
  let source_ip ← RadioIp.read
  let target_ip ← RadioIp.read
  let pc_flag ← asEnum TelemetryProtocol.PcFlagTypes (readU1)
  let call_type ← asEnum TelemetryProtocol.CallTypes (readU1)
  let vio_select ← readBytes 1
  let result ← asEnum TelemetryProtocol.ControlResultTypes (readU1)
  return { source_ip, target_ip, pc_flag, call_type, vio_select, result }

/-- okdmr/kaitai/hytera/telemetry_protocol.py:150-162 attributes of `TelemetryProtocol.RemoteControlRequest`. -/
structure TelemetryProtocol.RemoteControlRequest where
  source_ip : RadioIp
  target_ip : RadioIp
  pc_flag : EnumVal TelemetryProtocol.PcFlagTypes
  call_type : EnumVal TelemetryProtocol.CallTypes
  vio_select : Bytes
  operation : EnumVal TelemetryProtocol.OperationTypes
  deriving DecidableEq

/-- okdmr/kaitai/hytera/telemetry_protocol.py:150-162 `TelemetryProtocol.RemoteControlRequest._read`. -/
def TelemetryProtocol.RemoteControlRequest.read : Rd TelemetryProtocol.RemoteControlRequest := do
  let source_ip ← RadioIp.read
  let target_ip ← RadioIp.read
  let pc_flag ← asEnum TelemetryProtocol.PcFlagTypes (readU1)
  let call_type ← asEnum TelemetryProtocol.CallTypes (readU1)
  let vio_select ← readBytes 1
  let operation ← asEnum TelemetryProtocol.OperationTypes (readU1)
  return { source_ip, target_ip, pc_flag, call_type, vio_select, operation }

/-- okdmr/kaitai/hytera/telemetry_protocol.py:171-183 attributes of `TelemetryProtocol.ExtendedStatusReport`. -/
structure TelemetryProtocol.ExtendedStatusReport where
  source_ip : RadioIp
  target_ip : RadioIp
  pc_flag : EnumVal TelemetryProtocol.PcFlagTypes
  call_type : EnumVal TelemetryProtocol.CallTypes
  vio_select : Bytes
  result_messages : TelemetryProtocol.VioExtendedStatus
  deriving DecidableEq

/-- okdmr/kaitai/hytera/telemetry_protocol.py:171-183 `TelemetryProtocol.ExtendedStatusReport._read`. -/
def TelemetryProtocol.ExtendedStatusReport.read : Rd TelemetryProtocol.ExtendedStatusReport := do
  let source_ip ← RadioIp.read
  let target_ip ← RadioIp.read
  let pc_flag ← asEnum TelemetryProtocol.PcFlagTypes (readU1)
  let call_type ← asEnum TelemetryProtocol.CallTypes (readU1)
  let vio_select ← readBytes 1
  let result_messages ← TelemetryProtocol.VioExtendedStatus.read
  return { source_ip, target_ip, pc_flag, call_type, vio_select, result_messages }

/-- okdmr/kaitai/hytera/telemetry_protocol.py:192-201 attributes of `TelemetryProtocol.StandardStatusRequest`. -/
structure TelemetryProtocol.StandardStatusRequest where
  source_ip : RadioIp
  target_ip : RadioIp
  pc_flag : EnumVal TelemetryProtocol.PcFlagTypes
  call_type : EnumVal TelemetryProtocol.CallTypes
  vio_select : Bytes
  deriving DecidableEq

/-- okdmr/kaitai/hytera/telemetry_protocol.py:192-201 `TelemetryProtocol.StandardStatusRequest._read`. -/
def TelemetryProtocol.StandardStatusRequest.read : Rd TelemetryProtocol.StandardStatusRequest := do
  let source_ip ← RadioIp.read
  let target_ip ← RadioIp.read
  let pc_flag ← asEnum TelemetryProtocol.PcFlagTypes (readU1)
  let call_type ← asEnum TelemetryProtocol.CallTypes (readU1)
  let vio_select ← readBytes 1
  return { source_ip, target_ip, pc_flag, call_type, vio_select }

/-- okdmr/kaitai/hytera/telemetry_protocol.py:66-85 possible objects in `TelemetryProtocol.data`. -/
inductive TelemetryProtocol.DataUnion where
  | standardStatusRequest (x : TelemetryProtocol.StandardStatusRequest)
  | remoteControlAnswer (x : TelemetryProtocol.RemoteControlAnswer)
  | extendedStatusReport (x : TelemetryProtocol.ExtendedStatusReport)
  | remoteControlRequest (x : TelemetryProtocol.RemoteControlRequest)
  | standardStatusReport (x : TelemetryProtocol.StandardStatusReport)
  deriving DecidableEq

/-- okdmr/kaitai/hytera/telemetry_protocol.py:59-85 attributes of `TelemetryProtocol` (hand-written).
`m_specific_service` is the cached property value `_m_specific_service`, which `_read` always computes. -/
structure TelemetryProtocol where
  service_type_opcode : EnumVal TelemetryProtocol.ServiceTypes
  specific_service_opcode : Nat
  message_length : Nat
  m_specific_service : EnumVal TelemetryProtocol.ServiceSpecificTypes
  data : Option TelemetryProtocol.DataUnion
  deriving DecidableEq

/-- okdmr/kaitai/hytera/telemetry_protocol.py:203-214 property `specific_service` on its first access
(hand-written): it reads at offset 0 of the stream, whatever precedes the message there. -/
def TelemetryProtocol.computeSpecificService : Rd (EnumVal TelemetryProtocol.ServiceSpecificTypes) := do
  let pos ← posIo
  seekIo 0
  let v ← asEnum TelemetryProtocol.ServiceSpecificTypes readU2be
  seekIo pos
  return v

/-- okdmr/kaitai/hytera/telemetry_protocol.py:66-85 the `if _on == ...` chain of `TelemetryProtocol._read` (hand-written). -/
def TelemetryProtocol.readData (on : EnumVal TelemetryProtocol.ServiceSpecificTypes) : Rd (Option TelemetryProtocol.DataUnion) :=
  if on = .known .standard_status_request then do let x ← TelemetryProtocol.StandardStatusRequest.read; return some (.standardStatusRequest x)
  else if on = .known .remote_control_answer then do let x ← TelemetryProtocol.RemoteControlAnswer.read; return some (.remoteControlAnswer x)
  else if on = .known .extended_status_report then do let x ← TelemetryProtocol.ExtendedStatusReport.read; return some (.extendedStatusReport x)
  else if on = .known .remote_control_request then do let x ← TelemetryProtocol.RemoteControlRequest.read; return some (.remoteControlRequest x)
  else if on = .known .standard_status_report then do let x ← TelemetryProtocol.StandardStatusReport.read; return some (.standardStatusReport x)
  else return none

/-- okdmr/kaitai/hytera/telemetry_protocol.py:59-85 `TelemetryProtocol._read` (hand-written). -/
def TelemetryProtocol.read : Rd TelemetryProtocol := do
  let service_type_opcode ← asEnum TelemetryProtocol.ServiceTypes (readU1)
  let specific_service_opcode ← readU1
  let message_length ← readU2be
  let m_specific_service ← TelemetryProtocol.computeSpecificService
  let data ← TelemetryProtocol.readData m_specific_service
  return { service_type_opcode, specific_service_opcode, message_length, m_specific_service, data }

end Dmr.Hytera
