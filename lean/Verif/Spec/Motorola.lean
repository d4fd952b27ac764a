import Verif.Spec
import Verif.Spec.Text
import Verif.Spec.Parse
import Verif.Model.Motorola.AutomaticRegistrationService
import Verif.Model.Motorola.MotorolaBinaryXml
import Verif.Model.Motorola.TextMessageProtocol
/-
Where the fields of the fixed-size Motorola structures lie: `X.spec b q` is the object that the bytes of `b`
from offset `q` on stand for. Offsets are those of the protocol documents; nothing here reads a stream.
-/

namespace Dmr.Motorola

/-- `AutomaticRegistrationService.MessageHeaderBits`, 1 byte. -/
def AutomaticRegistrationService.MessageHeaderBits.spec (b : Bytes) (q : Nat) : AutomaticRegistrationService.MessageHeaderBits where
  extension_bit := flagAt b (8 * q)
  acknowledgement_bit := flagAt b (8 * q + 1)
  priority := flagAt b (8 * q + 2)
  control_user_bit := flagAt b (8 * q + 3)
  pdu_type := bitsAt b (8 * q + 4) 4

/-- `AutomaticRegistrationService.DeviceRegistrationAcknowledgementHeader`, 1 byte. -/
def AutomaticRegistrationService.DeviceRegistrationAcknowledgementHeader.spec (b : Bytes) (q : Nat) : AutomaticRegistrationService.DeviceRegistrationAcknowledgementHeader where
  extension_bit := flagAt b (8 * q)
  refresh_time := bitsAt b (8 * q + 1) 7

/-- `AutomaticRegistrationService.DeviceRegistrationAcknowledgementFailureReason`, 1 byte. -/
def AutomaticRegistrationService.DeviceRegistrationAcknowledgementFailureReason.spec (b : Bytes) (q : Nat) : AutomaticRegistrationService.DeviceRegistrationAcknowledgementFailureReason where
  extension_bit := flagAt b (8 * q)
  failure_reason := resolveEnum _ (bitsAt b (8 * q + 1) 7)

/-- `AutomaticRegistrationService.DeviceRegistrationMessageHeader`, 1 byte. -/
def AutomaticRegistrationService.DeviceRegistrationMessageHeader.spec (b : Bytes) (q : Nat) : AutomaticRegistrationService.DeviceRegistrationMessageHeader where
  extension_bit := flagAt b (8 * q)
  event := resolveEnum _ (bitsAt b (8 * q + 1) 2)
  encoding := bitsAt b (8 * q + 3) 5

/-- `MotorolaBinaryXml.Opaque1byteValue`, 1 byte. -/
def MotorolaBinaryXml.Opaque1byteValue.spec (b : Bytes) (q : Nat) : MotorolaBinaryXml.Opaque1byteValue where
  value := slice b q 1

/-- `MotorolaBinaryXml.Opaque3byteValue`, 3 bytes. -/
def MotorolaBinaryXml.Opaque3byteValue.spec (b : Bytes) (q : Nat) : MotorolaBinaryXml.Opaque3byteValue where
  value := slice b q 3

/-- `MotorolaBinaryXml.Opaque5byteValue`, 5 bytes. -/
def MotorolaBinaryXml.Opaque5byteValue.spec (b : Bytes) (q : Nat) : MotorolaBinaryXml.Opaque5byteValue where
  value := slice b q 5

/-- `MotorolaBinaryXml.Opaque2byteValue`, 2 bytes. -/
def MotorolaBinaryXml.Opaque2byteValue.spec (b : Bytes) (q : Nat) : MotorolaBinaryXml.Opaque2byteValue where
  value := slice b q 2

/-- `MotorolaBinaryXml.Opaque4byteValue`, 4 bytes. -/
def MotorolaBinaryXml.Opaque4byteValue.spec (b : Bytes) (q : Nat) : MotorolaBinaryXml.Opaque4byteValue where
  value := slice b q 4

/-- `TextMessageProtocol.MessageHeaderBits`, 1 byte. -/
def TextMessageProtocol.MessageHeaderBits.spec (b : Bytes) (q : Nat) : TextMessageProtocol.MessageHeaderBits where
  extension_bit := flagAt b (8 * q)
  acknowledgement_required := flagAt b (8 * q + 1)
  reserved := flagAt b (8 * q + 2)
  control_user_bit := flagAt b (8 * q + 3)
  pdu_type := bitsAt b (8 * q + 4) 4

/-- `TextMessageProtocol.TmsServiceAvailabilityHeader`, 1 byte. -/
def TextMessageProtocol.TmsServiceAvailabilityHeader.spec (b : Bytes) (q : Nat) : TextMessageProtocol.TmsServiceAvailabilityHeader where
  extension_bit := flagAt b (8 * q)
  reserved := bitsAt b (8 * q + 1) 4
  device := resolveEnum _ (bitsAt b (8 * q + 5) 3)

end Dmr.Motorola
