import Verif.Runtime
/-
Model of okdmr/kaitai/motorola/automatic_registration_service.py (generated by tools/py2lean.py from the Python AST;
definitions marked "hand-written" are not).
-/

namespace Dmr.Motorola

/-- okdmr/kaitai/motorola/automatic_registration_service.py:17-19 `class RegistrationEvents(Enum)`. -/
inductive AutomaticRegistrationService.RegistrationEvents where
  | initial_event
  | refresh_event
  deriving DecidableEq

/-- okdmr/kaitai/motorola/automatic_registration_service.py:17-19 values of `RegistrationEvents`. -/
def AutomaticRegistrationService.RegistrationEvents.toNat : AutomaticRegistrationService.RegistrationEvents → Nat
  | .initial_event => 1
  | .refresh_event => 2

/-- okdmr/kaitai/motorola/automatic_registration_service.py:17-19 `RegistrationEvents` as a Python enumeration. -/
instance AutomaticRegistrationService.RegistrationEvents.instPyEnum : PyEnum AutomaticRegistrationService.RegistrationEvents where
  all := [.initial_event, .refresh_event]
  value := AutomaticRegistrationService.RegistrationEvents.toNat

/-- okdmr/kaitai/motorola/automatic_registration_service.py:21-22 `class FailureReasons(Enum)`. -/
inductive AutomaticRegistrationService.FailureReasons where
  | device_not_authorized
  deriving DecidableEq

/-- okdmr/kaitai/motorola/automatic_registration_service.py:21-22 values of `FailureReasons`. -/
def AutomaticRegistrationService.FailureReasons.toNat : AutomaticRegistrationService.FailureReasons → Nat
  | .device_not_authorized => 0

/-- okdmr/kaitai/motorola/automatic_registration_service.py:21-22 `FailureReasons` as a Python enumeration. -/
instance AutomaticRegistrationService.FailureReasons.instPyEnum : PyEnum AutomaticRegistrationService.FailureReasons where
  all := [.device_not_authorized]
  value := AutomaticRegistrationService.FailureReasons.toNat

/-- okdmr/kaitai/motorola/automatic_registration_service.py:102-107 attributes of `AutomaticRegistrationService.MessageHeaderBits`. -/
structure AutomaticRegistrationService.MessageHeaderBits where
  extension_bit : Bool
  acknowledgement_bit : Bool
  priority : Bool
  control_user_bit : Bool
  pdu_type : Nat
  deriving DecidableEq

/-- okdmr/kaitai/motorola/automatic_registration_service.py:102-107 `AutomaticRegistrationService.MessageHeaderBits._read`. -/
def AutomaticRegistrationService.MessageHeaderBits.read : Rd AutomaticRegistrationService.MessageHeaderBits := do
  let extension_bit ← readFlag
  let acknowledgement_bit ← readFlag
  let priority ← readFlag
  let control_user_bit ← readFlag
  let pdu_type ← readBitsIntBe 4
  return { extension_bit, acknowledgement_bit, priority, control_user_bit, pdu_type }

/-- okdmr/kaitai/motorola/automatic_registration_service.py:187-189 attributes of `AutomaticRegistrationService.DeviceRegistrationAcknowledgementHeader`. -/
structure AutomaticRegistrationService.DeviceRegistrationAcknowledgementHeader where
  extension_bit : Bool
  refresh_time : Nat
  deriving DecidableEq

/-- okdmr/kaitai/motorola/automatic_registration_service.py:187-189 `AutomaticRegistrationService.DeviceRegistrationAcknowledgementHeader._read`. -/
def AutomaticRegistrationService.DeviceRegistrationAcknowledgementHeader.read : Rd AutomaticRegistrationService.DeviceRegistrationAcknowledgementHeader := do
  let extension_bit ← readFlag
  let refresh_time ← readBitsIntBe 7
  return { extension_bit, refresh_time }

/-- okdmr/kaitai/motorola/automatic_registration_service.py:130-135 attributes of `AutomaticRegistrationService.DeviceRegistrationAcknowledgementFailureReason`. -/
structure AutomaticRegistrationService.DeviceRegistrationAcknowledgementFailureReason where
  extension_bit : Bool
  failure_reason : EnumVal AutomaticRegistrationService.FailureReasons
  deriving DecidableEq

/-- okdmr/kaitai/motorola/automatic_registration_service.py:130-135 `AutomaticRegistrationService.DeviceRegistrationAcknowledgementFailureReason._read`. -/
def AutomaticRegistrationService.DeviceRegistrationAcknowledgementFailureReason.read : Rd AutomaticRegistrationService.DeviceRegistrationAcknowledgementFailureReason := do
  let extension_bit ← readFlag
  let failure_reason ← asEnum AutomaticRegistrationService.FailureReasons (readBitsIntBe 7)
  return { extension_bit, failure_reason }

/-- okdmr/kaitai/motorola/automatic_registration_service.py:65-78 attributes of `AutomaticRegistrationService.AcknowledgementMessage`. -/
structure AutomaticRegistrationService.AcknowledgementMessage where
  device_registration_acknowledgement_header : Option (AutomaticRegistrationService.DeviceRegistrationAcknowledgementHeader)
  device_registration_acknowledgement_failure_reason : Option (AutomaticRegistrationService.DeviceRegistrationAcknowledgementFailureReason)
  deriving DecidableEq

/-- okdmr/kaitai/motorola/automatic_registration_service.py:65-78 `AutomaticRegistrationService.AcknowledgementMessage._read`. -/
def AutomaticRegistrationService.AcknowledgementMessage.read (root_message_header : AutomaticRegistrationService.MessageHeaderBits) : Rd AutomaticRegistrationService.AcknowledgementMessage := do
  let device_registration_acknowledgement_header ← optionally ((root_message_header.extension_bit) && (root_message_header.acknowledgement_bit)) (AutomaticRegistrationService.DeviceRegistrationAcknowledgementHeader.read)
  let device_registration_acknowledgement_failure_reason ← optionally ((root_message_header.extension_bit) && (!(root_message_header.acknowledgement_bit))) (AutomaticRegistrationService.DeviceRegistrationAcknowledgementFailureReason.read)
  return { device_registration_acknowledgement_header, device_registration_acknowledgement_failure_reason }

/-- okdmr/kaitai/motorola/automatic_registration_service.py:87-93 attributes of `AutomaticRegistrationService.DeviceRegistrationMessageHeader`. -/
structure AutomaticRegistrationService.DeviceRegistrationMessageHeader where
  extension_bit : Bool
  event : EnumVal AutomaticRegistrationService.RegistrationEvents
  encoding : Nat
  deriving DecidableEq

/-- okdmr/kaitai/motorola/automatic_registration_service.py:87-93 `AutomaticRegistrationService.DeviceRegistrationMessageHeader._read`. -/
def AutomaticRegistrationService.DeviceRegistrationMessageHeader.read : Rd AutomaticRegistrationService.DeviceRegistrationMessageHeader := do
  let extension_bit ← readFlag
  let event ← asEnum AutomaticRegistrationService.RegistrationEvents (readBitsIntBe 2)
  let encoding ← readBitsIntBe 5
  return { extension_bit, event, encoding }

/-- okdmr/kaitai/motorola/automatic_registration_service.py:118-119 attributes of `AutomaticRegistrationService.DeviceDeregistrationMessage`. -/
structure AutomaticRegistrationService.DeviceDeregistrationMessage where
  deriving DecidableEq

/-- okdmr/kaitai/motorola/automatic_registration_service.py:118-119 `AutomaticRegistrationService.DeviceDeregistrationMessage._read`. -/
def AutomaticRegistrationService.DeviceDeregistrationMessage.read : Rd AutomaticRegistrationService.DeviceDeregistrationMessage := return {}

/-- okdmr/kaitai/motorola/automatic_registration_service.py:146-164 attributes of `AutomaticRegistrationService.DeviceRegistrationMessage`. -/
structure AutomaticRegistrationService.DeviceRegistrationMessage where
  device_registration_message_header : Option (AutomaticRegistrationService.DeviceRegistrationMessageHeader)
  len_device_identifier : Nat
  device_identifier : Option (Bytes)
  len_user_identifier : Nat
  user_identifier : Option (Bytes)
  len_password : Nat
  password : Option (Bytes)
  deriving DecidableEq

/-- okdmr/kaitai/motorola/automatic_registration_service.py:146-164 `AutomaticRegistrationService.DeviceRegistrationMessage._read`. -/
def AutomaticRegistrationService.DeviceRegistrationMessage.read (root_message_header : AutomaticRegistrationService.MessageHeaderBits) : Rd AutomaticRegistrationService.DeviceRegistrationMessage := do
  let device_registration_message_header ← optionally (root_message_header.extension_bit) (AutomaticRegistrationService.DeviceRegistrationMessageHeader.read)
  let len_device_identifier ← readU1
  let device_identifier ← optionally (decide (len_device_identifier > 0)) (readBytes len_device_identifier)
  let len_user_identifier ← readU1
  let user_identifier ← optionally (decide (len_user_identifier > 0)) (readBytes len_user_identifier)
  let len_password ← readU1
  let password ← optionally (decide (len_password > 0)) (readBytes len_password)
  return { device_registration_message_header, len_device_identifier, device_identifier, len_user_identifier, user_identifier, len_password, password }

/-- okdmr/kaitai/motorola/automatic_registration_service.py:175-176 attributes of `AutomaticRegistrationService.ArsQueryMessage`. -/
structure AutomaticRegistrationService.ArsQueryMessage where
  deriving DecidableEq

/-- okdmr/kaitai/motorola/automatic_registration_service.py:175-176 `AutomaticRegistrationService.ArsQueryMessage._read`. -/
def AutomaticRegistrationService.ArsQueryMessage.read : Rd AutomaticRegistrationService.ArsQueryMessage := return {}

/-- okdmr/kaitai/motorola/automatic_registration_service.py:37-51 possible objects in `AutomaticRegistrationService.pdu_content`. -/
inductive AutomaticRegistrationService.PduContentUnion where
  | deviceRegistrationMessage (x : AutomaticRegistrationService.DeviceRegistrationMessage)
  | deviceDeregistrationMessage (x : AutomaticRegistrationService.DeviceDeregistrationMessage)
  | arsQueryMessage (x : AutomaticRegistrationService.ArsQueryMessage)
  | acknowledgementMessage (x : AutomaticRegistrationService.AcknowledgementMessage)
  deriving DecidableEq

/-- okdmr/kaitai/motorola/automatic_registration_service.py:36-51 the `if _on == ...` chain of `AutomaticRegistrationService._read`. -/
def AutomaticRegistrationService.readPduContent (on : Nat) (message_header : AutomaticRegistrationService.MessageHeaderBits) : Rd (Option AutomaticRegistrationService.PduContentUnion) :=
  if on = 0 then do let x ← AutomaticRegistrationService.DeviceRegistrationMessage.read message_header; return some (.deviceRegistrationMessage x)
  else if on = 1 then do let x ← AutomaticRegistrationService.DeviceDeregistrationMessage.read; return some (.deviceDeregistrationMessage x)
  else if on = 4 then do let x ← AutomaticRegistrationService.ArsQueryMessage.read; return some (.arsQueryMessage x)
  else if on = 15 then do let x ← AutomaticRegistrationService.AcknowledgementMessage.read message_header; return some (.acknowledgementMessage x)
  else return none

/-- okdmr/kaitai/motorola/automatic_registration_service.py:30-52 attributes of `AutomaticRegistrationService`. -/
structure AutomaticRegistrationService where
  message_size : Nat
  message_header : AutomaticRegistrationService.MessageHeaderBits
  pdu_content : Option AutomaticRegistrationService.PduContentUnion
  unparsed_data : Bytes
  deriving DecidableEq

/-- okdmr/kaitai/motorola/automatic_registration_service.py:30-52 `AutomaticRegistrationService._read`. -/
def AutomaticRegistrationService.read : Rd AutomaticRegistrationService := do
  let message_size ← readU2le
  let message_header ← AutomaticRegistrationService.MessageHeaderBits.read
  let pdu_content ← AutomaticRegistrationService.readPduContent message_header.pdu_type message_header
  let unparsed_data ← readBytesFull
  return { message_size, message_header, pdu_content, unparsed_data }

end Dmr.Motorola
