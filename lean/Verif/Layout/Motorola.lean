import Verif.Layout
import Verif.Spec.Motorola
import Verif.Enums
/-
The Motorola decoders read fields where `Verif/Spec/Motorola.lean` says they are.
-/

namespace Dmr.Motorola

fixed_layout AutomaticRegistrationService.MessageHeaderBits 1
fixed_layout AutomaticRegistrationService.DeviceRegistrationAcknowledgementHeader 1
fixed_layout AutomaticRegistrationService.DeviceRegistrationAcknowledgementFailureReason 1
fixed_layout AutomaticRegistrationService.DeviceRegistrationMessageHeader 1
fixed_layout MotorolaBinaryXml.Opaque1byteValue 1
fixed_layout MotorolaBinaryXml.Opaque3byteValue 3
fixed_layout MotorolaBinaryXml.Opaque5byteValue 5
fixed_layout MotorolaBinaryXml.Opaque2byteValue 2
fixed_layout MotorolaBinaryXml.Opaque4byteValue 4
fixed_layout TextMessageProtocol.MessageHeaderBits 1
fixed_layout TextMessageProtocol.TmsServiceAvailabilityHeader 1

end Dmr.Motorola
