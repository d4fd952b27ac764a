import Verif.Runtime
import Verif.Model.Hytera.RadioIp
/-
Model of okdmr/kaitai/hytera/radio_registration_service.py (generated by tools/py2lean.py from the Python AST;
definitions marked "hand-written" are not).
-/

namespace Dmr.Hytera

/-- okdmr/kaitai/hytera/radio_registration_service.py:19-24 `class RrsTypes(Enum)`. -/
inductive RadioRegistrationService.RrsTypes where
  | de_registration
  | online_check
  | registration
  | registration_ack
  | online_check_ack
  deriving DecidableEq

/-- okdmr/kaitai/hytera/radio_registration_service.py:19-24 values of `RrsTypes`. -/
def RadioRegistrationService.RrsTypes.toNat : RadioRegistrationService.RrsTypes → Nat
  | .de_registration => 1
  | .online_check => 2
  | .registration => 3
  | .registration_ack => 128
  | .online_check_ack => 130

/-- okdmr/kaitai/hytera/radio_registration_service.py:19-24 `RrsTypes` as a Python enumeration. -/
instance RadioRegistrationService.RrsTypes.instPyEnum : PyEnum RadioRegistrationService.RrsTypes where
  all := [.de_registration, .online_check, .registration, .registration_ack, .online_check_ack]
  value := RadioRegistrationService.RrsTypes.toNat

/-- okdmr/kaitai/hytera/radio_registration_service.py:32-49 attributes of `RadioRegistrationService`. -/
structure RadioRegistrationService where
  opcode : Bytes
  rrs_type : EnumVal RadioRegistrationService.RrsTypes
  message_length : Nat
  radio_ip : RadioIp
  result : Option (Nat)
  valid_time : Option (Nat)
  deriving DecidableEq

/-- okdmr/kaitai/hytera/radio_registration_service.py:32-49 `RadioRegistrationService._read`. -/
def RadioRegistrationService.read : Rd RadioRegistrationService := do
  let opcode ← readBytes 1
  validateEq opcode [0x00] "/seq/0"
  let rrs_type ← asEnum RadioRegistrationService.RrsTypes (readU1)
  let message_length ← readU2be
  let radio_ip ← RadioIp.read
  let result ← optionally ((decide (rrs_type = .known .registration_ack)) || (decide (rrs_type = .known .online_check_ack))) (readU1)
  let valid_time ← optionally (decide (rrs_type = .known .registration_ack)) (readU4be)
  return { opcode, rrs_type, message_length, radio_ip, result, valid_time }

end Dmr.Hytera
