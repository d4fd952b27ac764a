import Verif.Runtime
import Verif.Model.Hytera.RadioIp
/-
Model of okdmr/kaitai/hytera/data_transmit_protocol.py (generated by tools/py2lean.py from the Python AST;
definitions marked "hand-written" are not).
-/

namespace Dmr.Hytera

/-- okdmr/kaitai/hytera/data_transmit_protocol.py:19-20 `class ServiceTypes(Enum)`. -/
inductive DataTransmitProtocol.ServiceTypes where
  | data_transmit_protocol
  deriving DecidableEq

/-- okdmr/kaitai/hytera/data_transmit_protocol.py:19-20 values of `ServiceTypes`. -/
def DataTransmitProtocol.ServiceTypes.toNat : DataTransmitProtocol.ServiceTypes → Nat
  | .data_transmit_protocol => 160

/-- okdmr/kaitai/hytera/data_transmit_protocol.py:19-20 `ServiceTypes` as a Python enumeration. -/
instance DataTransmitProtocol.ServiceTypes.instPyEnum : PyEnum DataTransmitProtocol.ServiceTypes where
  all := [.data_transmit_protocol]
  value := DataTransmitProtocol.ServiceTypes.toNat

/-- okdmr/kaitai/hytera/data_transmit_protocol.py:22-28 `class ServiceSpecificTypes(Enum)`. -/
inductive DataTransmitProtocol.ServiceSpecificTypes where
  | dtp_request
  | data_slice_transmit
  | last_data_slice
  | dtp_answer
  | data_slice_answer
  | last_data_slice_answer
  deriving DecidableEq

/-- okdmr/kaitai/hytera/data_transmit_protocol.py:22-28 values of `ServiceSpecificTypes`. -/
def DataTransmitProtocol.ServiceSpecificTypes.toNat : DataTransmitProtocol.ServiceSpecificTypes → Nat
  | .dtp_request => 1
  | .data_slice_transmit => 2
  | .last_data_slice => 3
  | .dtp_answer => 17
  | .data_slice_answer => 18
  | .last_data_slice_answer => 19

/-- okdmr/kaitai/hytera/data_transmit_protocol.py:22-28 `ServiceSpecificTypes` as a Python enumeration. -/
instance DataTransmitProtocol.ServiceSpecificTypes.instPyEnum : PyEnum DataTransmitProtocol.ServiceSpecificTypes where
  all := [.dtp_request, .data_slice_transmit, .last_data_slice, .dtp_answer, .data_slice_answer, .last_data_slice_answer]
  value := DataTransmitProtocol.ServiceSpecificTypes.toNat

/-- okdmr/kaitai/hytera/data_transmit_protocol.py:30-32 `class Results(Enum)`. -/
inductive DataTransmitProtocol.Results where
  | success
  | failure
  deriving DecidableEq

/-- okdmr/kaitai/hytera/data_transmit_protocol.py:30-32 values of `Results`. -/
def DataTransmitProtocol.Results.toNat : DataTransmitProtocol.Results → Nat
  | .success => 0
  | .failure => 1

/-- okdmr/kaitai/hytera/data_transmit_protocol.py:30-32 `Results` as a Python enumeration. -/
instance DataTransmitProtocol.Results.instPyEnum : PyEnum DataTransmitProtocol.Results where
  all := [.success, .failure]
  value := DataTransmitProtocol.Results.toNat

/-- okdmr/kaitai/hytera/data_transmit_protocol.py:75-77 attributes of `DataTransmitProtocol.LastDataSlice`. -/
structure DataTransmitProtocol.LastDataSlice where
  destination_ip : RadioIp
  source_ip : RadioIp
  deriving DecidableEq

/-- okdmr/kaitai/hytera/data_transmit_protocol.py:75-77 `DataTransmitProtocol.LastDataSlice._read`. -/
def DataTransmitProtocol.LastDataSlice.read : Rd DataTransmitProtocol.LastDataSlice := do
  let destination_ip ← RadioIp.read
  let source_ip ← RadioIp.read
  return { destination_ip, source_ip }

/-- okdmr/kaitai/hytera/data_transmit_protocol.py:86-92 attributes of `DataTransmitProtocol.DtpRequest`. -/
structure DataTransmitProtocol.DtpRequest where
  destination_ip : RadioIp
  source_ip : RadioIp
  file_size : Nat
  file_name : PyStr
  deriving DecidableEq

/-- okdmr/kaitai/hytera/data_transmit_protocol.py:86-92 `DataTransmitProtocol.DtpRequest._read`. -/
def DataTransmitProtocol.DtpRequest.read (parent_message_length : Nat) : Rd DataTransmitProtocol.DtpRequest := do
  let destination_ip ← RadioIp.read
  let source_ip ← RadioIp.read
  let file_size ← readU2be
  let file_name ← decodeWith decodeUtf16le (readBytesInt ((parent_message_length : Int) - (10 : Int)))
  return { destination_ip, source_ip, file_size, file_name }

/-- okdmr/kaitai/hytera/data_transmit_protocol.py:101-107 attributes of `DataTransmitProtocol.DataSliceAnswer`. -/
structure DataTransmitProtocol.DataSliceAnswer where
  destination_ip : RadioIp
  source_ip : RadioIp
  block_number : Nat
  result : EnumVal DataTransmitProtocol.Results
  deriving DecidableEq

/-- okdmr/kaitai/hytera/data_transmit_protocol.py:101-107 `DataTransmitProtocol.DataSliceAnswer._read`. -/
def DataTransmitProtocol.DataSliceAnswer.read : Rd DataTransmitProtocol.DataSliceAnswer := do
  let destination_ip ← RadioIp.read
  let source_ip ← RadioIp.read
  let block_number ← readU2be
  let result ← asEnum DataTransmitProtocol.Results (readU1)
  return { destination_ip, source_ip, block_number, result }

/-- okdmr/kaitai/hytera/data_transmit_protocol.py:116-120 attributes of `DataTransmitProtocol.DataSliceTransmit`. -/
structure DataTransmitProtocol.DataSliceTransmit where
  destination_ip : RadioIp
  source_ip : RadioIp
  block_number : Nat
  file_data : Bytes
  deriving DecidableEq

/-- okdmr/kaitai/hytera/data_transmit_protocol.py:116-120 `DataTransmitProtocol.DataSliceTransmit._read`. -/
def DataTransmitProtocol.DataSliceTransmit.read (parent_message_length : Nat) : Rd DataTransmitProtocol.DataSliceTransmit := do
  let destination_ip ← RadioIp.read
  let source_ip ← RadioIp.read
  let block_number ← readU2be
  let file_data ← readBytesInt ((parent_message_length : Int) - (10 : Int))
  return { destination_ip, source_ip, block_number, file_data }

/-- okdmr/kaitai/hytera/data_transmit_protocol.py:129-134 attributes of `DataTransmitProtocol.LastDataSliceAnswer`. -/
structure DataTransmitProtocol.LastDataSliceAnswer where
  destination_ip : RadioIp
  source_ip : RadioIp
  result : EnumVal DataTransmitProtocol.Results
  deriving DecidableEq

/-- okdmr/kaitai/hytera/data_transmit_protocol.py:129-134 `DataTransmitProtocol.LastDataSliceAnswer._read`. -/
def DataTransmitProtocol.LastDataSliceAnswer.read : Rd DataTransmitProtocol.LastDataSliceAnswer := do
  let destination_ip ← RadioIp.read
  let source_ip ← RadioIp.read
  let result ← asEnum DataTransmitProtocol.Results (readU1)
  return { destination_ip, source_ip, result }

/-- okdmr/kaitai/hytera/data_transmit_protocol.py:143-148 attributes of `DataTransmitProtocol.DtpAnswer`. -/
structure DataTransmitProtocol.DtpAnswer where
  destination_ip : RadioIp
  source_ip : RadioIp
  result : EnumVal DataTransmitProtocol.Results
  deriving DecidableEq

/-- okdmr/kaitai/hytera/data_transmit_protocol.py:143-148 `DataTransmitProtocol.DtpAnswer._read`. -/
def DataTransmitProtocol.DtpAnswer.read : Rd DataTransmitProtocol.DtpAnswer := do
  let destination_ip ← RadioIp.read
  let source_ip ← RadioIp.read
  let result ← asEnum DataTransmitProtocol.Results (readU1)
  return { destination_ip, source_ip, result }

/-- okdmr/kaitai/hytera/data_transmit_protocol.py:50-64 possible objects in `DataTransmitProtocol.data`. -/
inductive DataTransmitProtocol.DataUnion where
  | dtpRequest (x : DataTransmitProtocol.DtpRequest)
  | dataSliceTransmit (x : DataTransmitProtocol.DataSliceTransmit)
  | dataSliceAnswer (x : DataTransmitProtocol.DataSliceAnswer)
  | lastDataSliceAnswer (x : DataTransmitProtocol.LastDataSliceAnswer)
  | dtpAnswer (x : DataTransmitProtocol.DtpAnswer)
  | lastDataSlice (x : DataTransmitProtocol.LastDataSlice)
  deriving DecidableEq

/-- okdmr/kaitai/hytera/data_transmit_protocol.py:49-64 the `if _on == ...` chain of `DataTransmitProtocol._read`. -/
def DataTransmitProtocol.readData (on : EnumVal DataTransmitProtocol.ServiceSpecificTypes) (message_length : Nat) : Rd (Option DataTransmitProtocol.DataUnion) :=
  if on = .known .dtp_request then do let x ← DataTransmitProtocol.DtpRequest.read message_length; return some (.dtpRequest x)
  else if on = .known .data_slice_transmit then do let x ← DataTransmitProtocol.DataSliceTransmit.read message_length; return some (.dataSliceTransmit x)
  else if on = .known .data_slice_answer then do let x ← DataTransmitProtocol.DataSliceAnswer.read; return some (.dataSliceAnswer x)
  else if on = .known .last_data_slice_answer then do let x ← DataTransmitProtocol.LastDataSliceAnswer.read; return some (.lastDataSliceAnswer x)
  else if on = .known .dtp_answer then do let x ← DataTransmitProtocol.DtpAnswer.read; return some (.dtpAnswer x)
  else if on = .known .last_data_slice then do let x ← DataTransmitProtocol.LastDataSlice.read; return some (.lastDataSlice x)
  else return none

/-- okdmr/kaitai/hytera/data_transmit_protocol.py:40-64 attributes of `DataTransmitProtocol`. -/
structure DataTransmitProtocol where
  service_type : EnumVal DataTransmitProtocol.ServiceTypes
  service_specific_type : EnumVal DataTransmitProtocol.ServiceSpecificTypes
  message_length : Nat
  data : Option DataTransmitProtocol.DataUnion
  deriving DecidableEq

/-- okdmr/kaitai/hytera/data_transmit_protocol.py:40-64 `DataTransmitProtocol._read`. -/
def DataTransmitProtocol.read : Rd DataTransmitProtocol := do
  let service_type ← asEnum DataTransmitProtocol.ServiceTypes (readU1)
  let service_specific_type ← asEnum DataTransmitProtocol.ServiceSpecificTypes (readU1)
  let message_length ← readU2be
  let data ← DataTransmitProtocol.readData service_specific_type message_length
  return { service_type, service_specific_type, message_length, data }

end Dmr.Hytera
