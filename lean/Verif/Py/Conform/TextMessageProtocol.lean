import Verif.Py.Base
import Verif.Py.Conform.RadioIp
/-
Generated by tools/mkpyconform.py: the source file of `Hytera.TextMessageProtocol` against the model of its classes.
-/

set_option autoImplicit false
set_option linter.unusedSimpArgs false
set_option maxHeartbeats 1000000

namespace Dmr.Py.ConformHytera

theorem TextMessageProtocol.file : files[17]? = some Source.Hytera.TextMessageProtocol.file := rfl

theorem enum_TextMessageProtocol_AckFlags : library.enums.find? (fun e => e.qualified == "Hytera.TextMessageProtocol.AckFlags") = some Source.Hytera.TextMessageProtocol.AckFlags := enum_at 17 _ TextMessageProtocol.file 0 Source.Hytera.TextMessageProtocol.AckFlags rfl

@[py] theorem resolve_TextMessageProtocol_AckFlags (v : Nat) : resolve library "Hytera.TextMessageProtocol.AckFlags" (.pv (.int (v : Int))) =
    pure (.pv (EnumVal.toPy "AckFlags" (resolveEnum Dmr.Hytera.TextMessageProtocol.AckFlags v))) := run_resolve Source.Hytera.TextMessageProtocol.AckFlags enum_TextMessageProtocol_AckFlags (by decide) v

theorem enum_TextMessageProtocol_OptionFlags : library.enums.find? (fun e => e.qualified == "Hytera.TextMessageProtocol.OptionFlags") = some Source.Hytera.TextMessageProtocol.OptionFlags := enum_at 17 _ TextMessageProtocol.file 1 Source.Hytera.TextMessageProtocol.OptionFlags rfl

@[py] theorem resolve_TextMessageProtocol_OptionFlags (v : Nat) : resolve library "Hytera.TextMessageProtocol.OptionFlags" (.pv (.int (v : Int))) =
    pure (.pv (EnumVal.toPy "OptionFlags" (resolveEnum Dmr.Hytera.TextMessageProtocol.OptionFlags v))) := run_resolve Source.Hytera.TextMessageProtocol.OptionFlags enum_TextMessageProtocol_OptionFlags (by decide) v

theorem enum_TextMessageProtocol_ServiceTypes : library.enums.find? (fun e => e.qualified == "Hytera.TextMessageProtocol.ServiceTypes") = some Source.Hytera.TextMessageProtocol.ServiceTypes := enum_at 17 _ TextMessageProtocol.file 2 Source.Hytera.TextMessageProtocol.ServiceTypes rfl

@[py] theorem resolve_TextMessageProtocol_ServiceTypes (v : Nat) : resolve library "Hytera.TextMessageProtocol.ServiceTypes" (.pv (.int (v : Int))) =
    pure (.pv (EnumVal.toPy "ServiceTypes" (resolveEnum Dmr.Hytera.TextMessageProtocol.ServiceTypes v))) := run_resolve Source.Hytera.TextMessageProtocol.ServiceTypes enum_TextMessageProtocol_ServiceTypes (by decide) v

@[py] theorem member_TextMessageProtocol_ServiceTypes_send_group_message : member library "Hytera.TextMessageProtocol.ServiceTypes" "send_group_message" = pure (.pv (.enum "ServiceTypes" 177)) := member_of enum_TextMessageProtocol_ServiceTypes rfl

@[py] theorem same_TextMessageProtocol_ServiceTypes_send_group_message (on : EnumVal Dmr.Hytera.TextMessageProtocol.ServiceTypes) :
    same (.pv (EnumVal.toPy "ServiceTypes" on)) (.pv (.enum "ServiceTypes" 177)) = decide (on = .known .send_group_message) :=
  same_known _ _ Dmr.Hytera.TextMessageProtocol.ServiceTypes.send_group_message

@[py] theorem member_TextMessageProtocol_ServiceTypes_send_group_message_ack : member library "Hytera.TextMessageProtocol.ServiceTypes" "send_group_message_ack" = pure (.pv (.enum "ServiceTypes" 178)) := member_of enum_TextMessageProtocol_ServiceTypes rfl

@[py] theorem same_TextMessageProtocol_ServiceTypes_send_group_message_ack (on : EnumVal Dmr.Hytera.TextMessageProtocol.ServiceTypes) :
    same (.pv (EnumVal.toPy "ServiceTypes" on)) (.pv (.enum "ServiceTypes" 178)) = decide (on = .known .send_group_message_ack) :=
  same_known _ _ Dmr.Hytera.TextMessageProtocol.ServiceTypes.send_group_message_ack

@[py] theorem member_TextMessageProtocol_ServiceTypes_send_private_message : member library "Hytera.TextMessageProtocol.ServiceTypes" "send_private_message" = pure (.pv (.enum "ServiceTypes" 161)) := member_of enum_TextMessageProtocol_ServiceTypes rfl

@[py] theorem same_TextMessageProtocol_ServiceTypes_send_private_message (on : EnumVal Dmr.Hytera.TextMessageProtocol.ServiceTypes) :
    same (.pv (EnumVal.toPy "ServiceTypes" on)) (.pv (.enum "ServiceTypes" 161)) = decide (on = .known .send_private_message) :=
  same_known _ _ Dmr.Hytera.TextMessageProtocol.ServiceTypes.send_private_message

@[py] theorem member_TextMessageProtocol_ServiceTypes_send_private_message_ack : member library "Hytera.TextMessageProtocol.ServiceTypes" "send_private_message_ack" = pure (.pv (.enum "ServiceTypes" 162)) := member_of enum_TextMessageProtocol_ServiceTypes rfl

@[py] theorem same_TextMessageProtocol_ServiceTypes_send_private_message_ack (on : EnumVal Dmr.Hytera.TextMessageProtocol.ServiceTypes) :
    same (.pv (EnumVal.toPy "ServiceTypes" on)) (.pv (.enum "ServiceTypes" 162)) = decide (on = .known .send_private_message_ack) :=
  same_known _ _ Dmr.Hytera.TextMessageProtocol.ServiceTypes.send_private_message_ack

theorem enum_TextMessageProtocol_ResultCodes : library.enums.find? (fun e => e.qualified == "Hytera.TextMessageProtocol.ResultCodes") = some Source.Hytera.TextMessageProtocol.ResultCodes := enum_at 17 _ TextMessageProtocol.file 3 Source.Hytera.TextMessageProtocol.ResultCodes rfl

@[py] theorem resolve_TextMessageProtocol_ResultCodes (v : Nat) : resolve library "Hytera.TextMessageProtocol.ResultCodes" (.pv (.int (v : Int))) =
    pure (.pv (EnumVal.toPy "ResultCodes" (resolveEnum Dmr.Hytera.TextMessageProtocol.ResultCodes v))) := run_resolve Source.Hytera.TextMessageProtocol.ResultCodes enum_TextMessageProtocol_ResultCodes (by decide) v

theorem TextMessageProtocol_class : library.class "Hytera.TextMessageProtocol" = some Source.Hytera.TextMessageProtocol := class_at 17 _ TextMessageProtocol.file 0 Source.Hytera.TextMessageProtocol rfl

@[py] theorem TextMessageProtocol_property (x : String) : library.property "Hytera.TextMessageProtocol" x = Source.Hytera.TextMessageProtocol.properties.lookup x :=
  property_of _ _ _ _ TextMessageProtocol_class

theorem same_zero_one : same (.pv (.int 0)) (.pv (.int 1)) = false := rfl
theorem same_one_one : same (.pv (.int 1)) (.pv (.int 1)) = true := rfl
theorem optionFlag_disabled (c : Calls) : getattr c (.pv (EnumVal.toPy "OptionFlags" (.known Dmr.Hytera.TextMessageProtocol.OptionFlags.option_len_and_field_disabled))) "value" =
    pure (.pv (.int ((0 : Nat) : Int))) := by
  rw [EnumVal.toPy, getattr]; rfl
theorem optionFlag_enabled (c : Calls) : getattr c (.pv (EnumVal.toPy "OptionFlags" (.known Dmr.Hytera.TextMessageProtocol.OptionFlags.option_len_and_field_enabled))) "value" =
    pure (.pv (.int ((1 : Nat) : Int))) := by
  rw [EnumVal.toPy, getattr]; rfl
theorem optionFlag_raw (c : Calls) (v : Nat) : getattr c (.pv (EnumVal.toPy "OptionFlags" (.raw v : EnumVal Dmr.Hytera.TextMessageProtocol.OptionFlags))) "value" =
    raise .attribute := by
  rw [EnumVal.toPy, getattr]
  · intro r h; cases h
  · intro _ _ h; cases h
theorem isOne_disabled : Dmr.Hytera.TextMessageProtocol.optionFlagIsOne (.known .option_len_and_field_disabled) = pure false := rfl
theorem isOne_enabled : Dmr.Hytera.TextMessageProtocol.optionFlagIsOne (.known .option_len_and_field_enabled) = pure true := rfl
theorem isOne_raw (v : Nat) : Dmr.Hytera.TextMessageProtocol.optionFlagIsOne (.raw v) = Rd.throw .attribute := rfl

/-- okdmr/kaitai/hytera/text_message_protocol.py:17-106 against `Dmr.Hytera.TextMessageProtocol`. -/
@[py] theorem TextMessageProtocol_builds (n : Nat) (H : List Obj) (S : List Stream) (k : Nat) (hk : k < S.length) (s : Stream)
    (parent root : Val) : ((calls library (n + 5)).construct "Hytera.TextMessageProtocol" [.io k, parent, root]).run ⟨H, S.set k s⟩ =
      after Dmr.Hytera.TextMessageProtocol.read s (fun e s' => .raise e ⟨H, S.set k s'⟩)
        (built Dmr.Hytera.TextMessageProtocol.toPy k parent root H S) := by
  rw [construct_eq library _ "Hytera.TextMessageProtocol" _ _ TextMessageProtocol_class rfl rfl]
  py_run [onStream_set _ _ _ _ hk, hk, Dmr.Hytera.TextMessageProtocol.read]
  py_same
  rename_i ack _ flag _ reserved _ _ _ service _ len s1
  generalize resolveEnum Dmr.Hytera.TextMessageProtocol.OptionFlags flag = flag
  rcases flag with flag | v
  · cases flag
    · py_run [onStream_set _ _ _ _ hk, hk, optionFlag_disabled, isOne_disabled, Dmr.Hytera.TextMessageProtocol.toPy, Source.Hytera.TextMessageProtocol,
        Dmr.Hytera.TextMessageProtocol.optionSumLen, Dmr.Hytera.TextMessageProtocol.readOptionField, same_zero_one, same_one_one, Int.natCast_add, Int.cast_ofNat_Int]
    · py_run [onStream_set _ _ _ _ hk, hk, optionFlag_enabled, isOne_enabled, Dmr.Hytera.TextMessageProtocol.toPy, Source.Hytera.TextMessageProtocol,
        Dmr.Hytera.TextMessageProtocol.optionSumLen, Dmr.Hytera.TextMessageProtocol.readOptionField, same_zero_one, same_one_one, Int.natCast_add, Int.cast_ofNat_Int]
  · py_run [onStream_set _ _ _ _ hk, hk, optionFlag_raw, isOne_raw]

@[py] theorem TextMessageProtocol_short (n k : Nat) : (calls library (n + 5)).construct "Hytera.TextMessageProtocol" [.io k] =
    (calls library (n + 5)).construct "Hytera.TextMessageProtocol" [.io k, .pv .none, .pv .none] := construct_short _ _ _ _ TextMessageProtocol_class rfl _

@[py] theorem TextMessageProtocol_place (io parent root : Val) (b : Nat) (x : Dmr.Hytera.TextMessageProtocol) :
    place io parent root b x.toPy = (.obj b, placeObj io (.pv .none) (.obj b) b x.toPy) :=
  place_file _ _ _ _ _ _ (by decide)

end Dmr.Py.ConformHytera
