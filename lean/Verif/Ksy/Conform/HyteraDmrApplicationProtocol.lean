import Verif.Ksy.Conform.Base
import Verif.Ksy.Conform.DataDeliveryStates
import Verif.Ksy.Conform.DataTransmitProtocol
import Verif.Ksy.Conform.LocationProtocol
import Verif.Ksy.Conform.RadioControlProtocol
import Verif.Ksy.Conform.RadioRegistrationService
import Verif.Ksy.Conform.TelemetryProtocol
import Verif.Ksy.Conform.TextMessageProtocol
/-
Generated by tools/mkconform.py: the schema of `HyteraDmrApplicationProtocol` against the model of the Python classes.
-/

set_option linter.unusedSimpArgs false
set_option maxHeartbeats 1000000

namespace Dmr.Ksy.Hytera

@[ksy] theorem resolve_HyteraDmrApplicationProtocol_MessageHeaderTypes (v : Nat) : Hytera.HyteraDmrApplicationProtocol.MessageHeaderTypes.resolve v = EnumVal.toPy "MessageHeaderTypes" (resolveEnum Dmr.Hytera.HyteraDmrApplicationProtocol.MessageHeaderTypes v) :=
  resolve_eq _ (by decide) v

@[ksy ↓] theorem read_HyteraDmrApplicationProtocol_MessageHeaderTypes_b7 (ev sub) : readTy ev sub (.bitsEnum 7 Hytera.HyteraDmrApplicationProtocol.MessageHeaderTypes) =
    asEnum Dmr.Hytera.HyteraDmrApplicationProtocol.MessageHeaderTypes (readBitsIntBe 7) >>= fun e => pure (some (EnumVal.toPy "MessageHeaderTypes" e)) :=
  enum_bits resolve_HyteraDmrApplicationProtocol_MessageHeaderTypes ev sub 7

@[ksy] theorem member_HyteraDmrApplicationProtocol_MessageHeaderTypes_data_delivery_states : Hytera.HyteraDmrApplicationProtocol.MessageHeaderTypes.member "data_delivery_states" = pure (.enum "MessageHeaderTypes" 20) := rfl

@[ksy] theorem same_HyteraDmrApplicationProtocol_MessageHeaderTypes_data_delivery_states (on : EnumVal Dmr.Hytera.HyteraDmrApplicationProtocol.MessageHeaderTypes) :
    same (EnumVal.toPy "MessageHeaderTypes" on) (.enum "MessageHeaderTypes" 20) = decide (on = .known .data_delivery_states) :=
  same_known _ _ Dmr.Hytera.HyteraDmrApplicationProtocol.MessageHeaderTypes.data_delivery_states

@[ksy] theorem member_HyteraDmrApplicationProtocol_MessageHeaderTypes_data_transmit_protocol : Hytera.HyteraDmrApplicationProtocol.MessageHeaderTypes.member "data_transmit_protocol" = pure (.enum "MessageHeaderTypes" 19) := rfl

@[ksy] theorem same_HyteraDmrApplicationProtocol_MessageHeaderTypes_data_transmit_protocol (on : EnumVal Dmr.Hytera.HyteraDmrApplicationProtocol.MessageHeaderTypes) :
    same (EnumVal.toPy "MessageHeaderTypes" on) (.enum "MessageHeaderTypes" 19) = decide (on = .known .data_transmit_protocol) :=
  same_known _ _ Dmr.Hytera.HyteraDmrApplicationProtocol.MessageHeaderTypes.data_transmit_protocol

@[ksy] theorem member_HyteraDmrApplicationProtocol_MessageHeaderTypes_location_protocol : Hytera.HyteraDmrApplicationProtocol.MessageHeaderTypes.member "location_protocol" = pure (.enum "MessageHeaderTypes" 8) := rfl

@[ksy] theorem same_HyteraDmrApplicationProtocol_MessageHeaderTypes_location_protocol (on : EnumVal Dmr.Hytera.HyteraDmrApplicationProtocol.MessageHeaderTypes) :
    same (EnumVal.toPy "MessageHeaderTypes" on) (.enum "MessageHeaderTypes" 8) = decide (on = .known .location_protocol) :=
  same_known _ _ Dmr.Hytera.HyteraDmrApplicationProtocol.MessageHeaderTypes.location_protocol

@[ksy] theorem member_HyteraDmrApplicationProtocol_MessageHeaderTypes_radio_control_protocol : Hytera.HyteraDmrApplicationProtocol.MessageHeaderTypes.member "radio_control_protocol" = pure (.enum "MessageHeaderTypes" 2) := rfl

@[ksy] theorem same_HyteraDmrApplicationProtocol_MessageHeaderTypes_radio_control_protocol (on : EnumVal Dmr.Hytera.HyteraDmrApplicationProtocol.MessageHeaderTypes) :
    same (EnumVal.toPy "MessageHeaderTypes" on) (.enum "MessageHeaderTypes" 2) = decide (on = .known .radio_control_protocol) :=
  same_known _ _ Dmr.Hytera.HyteraDmrApplicationProtocol.MessageHeaderTypes.radio_control_protocol

@[ksy] theorem member_HyteraDmrApplicationProtocol_MessageHeaderTypes_radio_registration : Hytera.HyteraDmrApplicationProtocol.MessageHeaderTypes.member "radio_registration" = pure (.enum "MessageHeaderTypes" 17) := rfl

@[ksy] theorem same_HyteraDmrApplicationProtocol_MessageHeaderTypes_radio_registration (on : EnumVal Dmr.Hytera.HyteraDmrApplicationProtocol.MessageHeaderTypes) :
    same (EnumVal.toPy "MessageHeaderTypes" on) (.enum "MessageHeaderTypes" 17) = decide (on = .known .radio_registration) :=
  same_known _ _ Dmr.Hytera.HyteraDmrApplicationProtocol.MessageHeaderTypes.radio_registration

@[ksy] theorem member_HyteraDmrApplicationProtocol_MessageHeaderTypes_telemetry_protocol : Hytera.HyteraDmrApplicationProtocol.MessageHeaderTypes.member "telemetry_protocol" = pure (.enum "MessageHeaderTypes" 18) := rfl

@[ksy] theorem same_HyteraDmrApplicationProtocol_MessageHeaderTypes_telemetry_protocol (on : EnumVal Dmr.Hytera.HyteraDmrApplicationProtocol.MessageHeaderTypes) :
    same (EnumVal.toPy "MessageHeaderTypes" on) (.enum "MessageHeaderTypes" 18) = decide (on = .known .telemetry_protocol) :=
  same_known _ _ Dmr.Hytera.HyteraDmrApplicationProtocol.MessageHeaderTypes.telemetry_protocol

@[ksy] theorem member_HyteraDmrApplicationProtocol_MessageHeaderTypes_text_message_protocol : Hytera.HyteraDmrApplicationProtocol.MessageHeaderTypes.member "text_message_protocol" = pure (.enum "MessageHeaderTypes" 9) := rfl

@[ksy] theorem same_HyteraDmrApplicationProtocol_MessageHeaderTypes_text_message_protocol (on : EnumVal Dmr.Hytera.HyteraDmrApplicationProtocol.MessageHeaderTypes) :
    same (EnumVal.toPy "MessageHeaderTypes" on) (.enum "MessageHeaderTypes" 9) = decide (on = .known .text_message_protocol) :=
  same_known _ _ Dmr.Hytera.HyteraDmrApplicationProtocol.MessageHeaderTypes.text_message_protocol

/-- okdmr/kaitai/hytera/hytera_dmr_application_protocol.ksy:22-25 against `Dmr.Hytera.HyteraDmrApplicationProtocol.UndefinedProtocol`. -/
@[ksy ↓] theorem HyteraDmrApplicationProtocol_UndefinedProtocol_conforms (n : Nat) (sc : Scope) :
    parse (n + 1) sc Hytera.HyteraDmrApplicationProtocol.UndefinedProtocol = (fun x => view (Dmr.Hytera.HyteraDmrApplicationProtocol.UndefinedProtocol.toPy x)) <$> Dmr.Hytera.HyteraDmrApplicationProtocol.UndefinedProtocol.read := by
  rw [parse_succ]
  ksy_simp [Dmr.Hytera.HyteraDmrApplicationProtocol.UndefinedProtocol.read, Dmr.Hytera.HyteraDmrApplicationProtocol.UndefinedProtocol.toPy]

/-- okdmr/kaitai/hytera/hytera_dmr_application_protocol.ksy:1-50 against `Dmr.Hytera.HyteraDmrApplicationProtocol`. -/
@[ksy ↓] theorem HyteraDmrApplicationProtocol_conforms (n : Nat) (sc : Scope) :
    parse (n + 5) sc Hytera.HyteraDmrApplicationProtocol = (fun x => view (Dmr.Hytera.HyteraDmrApplicationProtocol.toPy x)) <$> Dmr.Hytera.HyteraDmrApplicationProtocol.read := by
  rw [parse_succ]
  ksy_simp [Dmr.Hytera.HyteraDmrApplicationProtocol.read, Dmr.Hytera.HyteraDmrApplicationProtocol.toPy]
  ksy_switch Dmr.Hytera.HyteraDmrApplicationProtocol.readData Dmr.Hytera.HyteraDmrApplicationProtocol.DataUnion.toPy Dmr.Hytera.HyteraDmrApplicationProtocol.MessageHeaderTypes

end Dmr.Ksy.Hytera
