import Verif.Py.Base
import Verif.Py.Conform.DataDeliveryStates
import Verif.Py.Conform.DataTransmitProtocol
import Verif.Py.Conform.LocationProtocol
import Verif.Py.Conform.RadioControlProtocol
import Verif.Py.Conform.RadioRegistrationService
import Verif.Py.Conform.TelemetryProtocol
import Verif.Py.Conform.TextMessageProtocol
/-
Generated by tools/mkpyconform.py: the source file of `Hytera.HyteraDmrApplicationProtocol` against the model of its classes.
-/

set_option autoImplicit false
set_option linter.unusedSimpArgs false
set_option maxHeartbeats 1000000

namespace Dmr.Py.ConformHytera

theorem HyteraDmrApplicationProtocol.file : files[4]? = some Source.Hytera.HyteraDmrApplicationProtocol.file := rfl

theorem enum_HyteraDmrApplicationProtocol_MessageHeaderTypes : library.enums.find? (fun e => e.qualified == "Hytera.HyteraDmrApplicationProtocol.MessageHeaderTypes") = some Source.Hytera.HyteraDmrApplicationProtocol.MessageHeaderTypes := enum_at 4 _ HyteraDmrApplicationProtocol.file 0 Source.Hytera.HyteraDmrApplicationProtocol.MessageHeaderTypes rfl

@[py] theorem resolve_HyteraDmrApplicationProtocol_MessageHeaderTypes (v : Nat) : resolve library "Hytera.HyteraDmrApplicationProtocol.MessageHeaderTypes" (.pv (.int (v : Int))) =
    pure (.pv (EnumVal.toPy "MessageHeaderTypes" (resolveEnum Dmr.Hytera.HyteraDmrApplicationProtocol.MessageHeaderTypes v))) := run_resolve Source.Hytera.HyteraDmrApplicationProtocol.MessageHeaderTypes enum_HyteraDmrApplicationProtocol_MessageHeaderTypes (by decide) v

@[py] theorem member_HyteraDmrApplicationProtocol_MessageHeaderTypes_data_delivery_states : member library "Hytera.HyteraDmrApplicationProtocol.MessageHeaderTypes" "data_delivery_states" = pure (.pv (.enum "MessageHeaderTypes" 20)) := member_of enum_HyteraDmrApplicationProtocol_MessageHeaderTypes rfl

@[py] theorem same_HyteraDmrApplicationProtocol_MessageHeaderTypes_data_delivery_states (on : EnumVal Dmr.Hytera.HyteraDmrApplicationProtocol.MessageHeaderTypes) :
    same (.pv (EnumVal.toPy "MessageHeaderTypes" on)) (.pv (.enum "MessageHeaderTypes" 20)) = decide (on = .known .data_delivery_states) :=
  same_known _ _ Dmr.Hytera.HyteraDmrApplicationProtocol.MessageHeaderTypes.data_delivery_states

@[py] theorem member_HyteraDmrApplicationProtocol_MessageHeaderTypes_data_transmit_protocol : member library "Hytera.HyteraDmrApplicationProtocol.MessageHeaderTypes" "data_transmit_protocol" = pure (.pv (.enum "MessageHeaderTypes" 19)) := member_of enum_HyteraDmrApplicationProtocol_MessageHeaderTypes rfl

@[py] theorem same_HyteraDmrApplicationProtocol_MessageHeaderTypes_data_transmit_protocol (on : EnumVal Dmr.Hytera.HyteraDmrApplicationProtocol.MessageHeaderTypes) :
    same (.pv (EnumVal.toPy "MessageHeaderTypes" on)) (.pv (.enum "MessageHeaderTypes" 19)) = decide (on = .known .data_transmit_protocol) :=
  same_known _ _ Dmr.Hytera.HyteraDmrApplicationProtocol.MessageHeaderTypes.data_transmit_protocol

@[py] theorem member_HyteraDmrApplicationProtocol_MessageHeaderTypes_location_protocol : member library "Hytera.HyteraDmrApplicationProtocol.MessageHeaderTypes" "location_protocol" = pure (.pv (.enum "MessageHeaderTypes" 8)) := member_of enum_HyteraDmrApplicationProtocol_MessageHeaderTypes rfl

@[py] theorem same_HyteraDmrApplicationProtocol_MessageHeaderTypes_location_protocol (on : EnumVal Dmr.Hytera.HyteraDmrApplicationProtocol.MessageHeaderTypes) :
    same (.pv (EnumVal.toPy "MessageHeaderTypes" on)) (.pv (.enum "MessageHeaderTypes" 8)) = decide (on = .known .location_protocol) :=
  same_known _ _ Dmr.Hytera.HyteraDmrApplicationProtocol.MessageHeaderTypes.location_protocol

@[py] theorem member_HyteraDmrApplicationProtocol_MessageHeaderTypes_radio_control_protocol : member library "Hytera.HyteraDmrApplicationProtocol.MessageHeaderTypes" "radio_control_protocol" = pure (.pv (.enum "MessageHeaderTypes" 2)) := member_of enum_HyteraDmrApplicationProtocol_MessageHeaderTypes rfl

@[py] theorem same_HyteraDmrApplicationProtocol_MessageHeaderTypes_radio_control_protocol (on : EnumVal Dmr.Hytera.HyteraDmrApplicationProtocol.MessageHeaderTypes) :
    same (.pv (EnumVal.toPy "MessageHeaderTypes" on)) (.pv (.enum "MessageHeaderTypes" 2)) = decide (on = .known .radio_control_protocol) :=
  same_known _ _ Dmr.Hytera.HyteraDmrApplicationProtocol.MessageHeaderTypes.radio_control_protocol

@[py] theorem member_HyteraDmrApplicationProtocol_MessageHeaderTypes_radio_registration : member library "Hytera.HyteraDmrApplicationProtocol.MessageHeaderTypes" "radio_registration" = pure (.pv (.enum "MessageHeaderTypes" 17)) := member_of enum_HyteraDmrApplicationProtocol_MessageHeaderTypes rfl

@[py] theorem same_HyteraDmrApplicationProtocol_MessageHeaderTypes_radio_registration (on : EnumVal Dmr.Hytera.HyteraDmrApplicationProtocol.MessageHeaderTypes) :
    same (.pv (EnumVal.toPy "MessageHeaderTypes" on)) (.pv (.enum "MessageHeaderTypes" 17)) = decide (on = .known .radio_registration) :=
  same_known _ _ Dmr.Hytera.HyteraDmrApplicationProtocol.MessageHeaderTypes.radio_registration

@[py] theorem member_HyteraDmrApplicationProtocol_MessageHeaderTypes_telemetry_protocol : member library "Hytera.HyteraDmrApplicationProtocol.MessageHeaderTypes" "telemetry_protocol" = pure (.pv (.enum "MessageHeaderTypes" 18)) := member_of enum_HyteraDmrApplicationProtocol_MessageHeaderTypes rfl

@[py] theorem same_HyteraDmrApplicationProtocol_MessageHeaderTypes_telemetry_protocol (on : EnumVal Dmr.Hytera.HyteraDmrApplicationProtocol.MessageHeaderTypes) :
    same (.pv (EnumVal.toPy "MessageHeaderTypes" on)) (.pv (.enum "MessageHeaderTypes" 18)) = decide (on = .known .telemetry_protocol) :=
  same_known _ _ Dmr.Hytera.HyteraDmrApplicationProtocol.MessageHeaderTypes.telemetry_protocol

@[py] theorem member_HyteraDmrApplicationProtocol_MessageHeaderTypes_text_message_protocol : member library "Hytera.HyteraDmrApplicationProtocol.MessageHeaderTypes" "text_message_protocol" = pure (.pv (.enum "MessageHeaderTypes" 9)) := member_of enum_HyteraDmrApplicationProtocol_MessageHeaderTypes rfl

@[py] theorem same_HyteraDmrApplicationProtocol_MessageHeaderTypes_text_message_protocol (on : EnumVal Dmr.Hytera.HyteraDmrApplicationProtocol.MessageHeaderTypes) :
    same (.pv (EnumVal.toPy "MessageHeaderTypes" on)) (.pv (.enum "MessageHeaderTypes" 9)) = decide (on = .known .text_message_protocol) :=
  same_known _ _ Dmr.Hytera.HyteraDmrApplicationProtocol.MessageHeaderTypes.text_message_protocol

theorem HyteraDmrApplicationProtocol_UndefinedProtocol_class : library.class "Hytera.HyteraDmrApplicationProtocol.UndefinedProtocol" = some Source.Hytera.HyteraDmrApplicationProtocol.UndefinedProtocol := class_at 4 _ HyteraDmrApplicationProtocol.file 0 Source.Hytera.HyteraDmrApplicationProtocol.UndefinedProtocol rfl

/-- okdmr/kaitai/hytera/hytera_dmr_application_protocol.py:79-87 against `Dmr.Hytera.HyteraDmrApplicationProtocol.UndefinedProtocol`. -/
@[py] theorem HyteraDmrApplicationProtocol_UndefinedProtocol_builds (n : Nat) (H : List Obj) (S : List Stream) (k : Nat) (hk : k < S.length) (s : Stream)
    (parent root : Val) : ((calls library (n + 3)).construct "Hytera.HyteraDmrApplicationProtocol.UndefinedProtocol" [.io k, parent, root]).run ⟨H, S.set k s⟩ =
      after Dmr.Hytera.HyteraDmrApplicationProtocol.UndefinedProtocol.read s (fun e s' => .raise e ⟨H, S.set k s'⟩)
        (built Dmr.Hytera.HyteraDmrApplicationProtocol.UndefinedProtocol.toPy k parent root H S) := by
  rw [construct_eq library _ "Hytera.HyteraDmrApplicationProtocol.UndefinedProtocol" _ _ HyteraDmrApplicationProtocol_UndefinedProtocol_class rfl rfl]
  py_run [onStream_set _ _ _ _ hk, hk, Dmr.Hytera.HyteraDmrApplicationProtocol.UndefinedProtocol.read, Dmr.Hytera.HyteraDmrApplicationProtocol.UndefinedProtocol.toPy]

@[py] theorem HyteraDmrApplicationProtocol_UndefinedProtocol_place (io parent root : Val) (b : Nat) (x : Dmr.Hytera.HyteraDmrApplicationProtocol.UndefinedProtocol) :
    place io parent root b x.toPy = (.obj b, placeObj io parent root b x.toPy) :=
  place_part _ _ _ _ _ _ (by decide)

theorem HyteraDmrApplicationProtocol_class : library.class "Hytera.HyteraDmrApplicationProtocol" = some Source.Hytera.HyteraDmrApplicationProtocol := class_at 4 _ HyteraDmrApplicationProtocol.file 1 Source.Hytera.HyteraDmrApplicationProtocol rfl

/-- okdmr/kaitai/hytera/hytera_dmr_application_protocol.py:23-87 against `Dmr.Hytera.HyteraDmrApplicationProtocol`. -/
@[py] theorem HyteraDmrApplicationProtocol_builds (n : Nat) (H : List Obj) (S : List Stream) (k : Nat) (hk : k < S.length) (s : Stream)
    (parent root : Val) : ((calls library (n + 11)).construct "Hytera.HyteraDmrApplicationProtocol" [.io k, parent, root]).run ⟨H, S.set k s⟩ =
      after Dmr.Hytera.HyteraDmrApplicationProtocol.read s (fun e s' => .raise e ⟨H, S.set k s'⟩)
        (built Dmr.Hytera.HyteraDmrApplicationProtocol.toPy k parent root H S) := by
  rw [construct_eq library _ "Hytera.HyteraDmrApplicationProtocol" _ _ HyteraDmrApplicationProtocol_class rfl rfl]
  py_run [onStream_set _ _ _ _ hk, hk, Dmr.Hytera.HyteraDmrApplicationProtocol.read, Dmr.Hytera.HyteraDmrApplicationProtocol.toPy, Dmr.Hytera.HyteraDmrApplicationProtocol.readData, Dmr.Hytera.HyteraDmrApplicationProtocol.DataUnion.toPy]

@[py] theorem HyteraDmrApplicationProtocol_short (n k : Nat) : (calls library (n + 11)).construct "Hytera.HyteraDmrApplicationProtocol" [.io k] =
    (calls library (n + 11)).construct "Hytera.HyteraDmrApplicationProtocol" [.io k, .pv .none, .pv .none] := construct_short _ _ _ _ HyteraDmrApplicationProtocol_class rfl _

@[py] theorem HyteraDmrApplicationProtocol_place (io parent root : Val) (b : Nat) (x : Dmr.Hytera.HyteraDmrApplicationProtocol) :
    place io parent root b x.toPy = (.obj b, placeObj io (.pv .none) (.obj b) b x.toPy) :=
  place_file _ _ _ _ _ _ (by decide)

end Dmr.Py.ConformHytera
