import Verif.Py.Base
/-
Generated by tools/mkpyconform.py: the source file of `Hytera.IpSiteConnectProtocol` against the model of its classes.
-/

set_option autoImplicit false
set_option linter.unusedSimpArgs false
set_option maxHeartbeats 1000000

namespace Dmr.Py.ConformHytera

theorem IpSiteConnectProtocol.file : files[9]? = some Source.Hytera.IpSiteConnectProtocol.file := rfl

theorem enum_IpSiteConnectProtocol_PacketTypes : library.enums.find? (fun e => e.qualified == "Hytera.IpSiteConnectProtocol.PacketTypes") = some Source.Hytera.IpSiteConnectProtocol.PacketTypes := enum_at 9 _ IpSiteConnectProtocol.file 0 Source.Hytera.IpSiteConnectProtocol.PacketTypes rfl

@[py] theorem resolve_IpSiteConnectProtocol_PacketTypes (v : Nat) : resolve library "Hytera.IpSiteConnectProtocol.PacketTypes" (.pv (.int (v : Int))) =
    pure (.pv (EnumVal.toPy "PacketTypes" (resolveEnum Dmr.Hytera.IpSiteConnectProtocol.PacketTypes v))) := run_resolve Source.Hytera.IpSiteConnectProtocol.PacketTypes enum_IpSiteConnectProtocol_PacketTypes (by decide) v

theorem enum_IpSiteConnectProtocol_FrameTypes : library.enums.find? (fun e => e.qualified == "Hytera.IpSiteConnectProtocol.FrameTypes") = some Source.Hytera.IpSiteConnectProtocol.FrameTypes := enum_at 9 _ IpSiteConnectProtocol.file 1 Source.Hytera.IpSiteConnectProtocol.FrameTypes rfl

@[py] theorem resolve_IpSiteConnectProtocol_FrameTypes (v : Nat) : resolve library "Hytera.IpSiteConnectProtocol.FrameTypes" (.pv (.int (v : Int))) =
    pure (.pv (EnumVal.toPy "FrameTypes" (resolveEnum Dmr.Hytera.IpSiteConnectProtocol.FrameTypes v))) := run_resolve Source.Hytera.IpSiteConnectProtocol.FrameTypes enum_IpSiteConnectProtocol_FrameTypes (by decide) v

theorem enum_IpSiteConnectProtocol_CallTypes : library.enums.find? (fun e => e.qualified == "Hytera.IpSiteConnectProtocol.CallTypes") = some Source.Hytera.IpSiteConnectProtocol.CallTypes := enum_at 9 _ IpSiteConnectProtocol.file 2 Source.Hytera.IpSiteConnectProtocol.CallTypes rfl

@[py] theorem resolve_IpSiteConnectProtocol_CallTypes (v : Nat) : resolve library "Hytera.IpSiteConnectProtocol.CallTypes" (.pv (.int (v : Int))) =
    pure (.pv (EnumVal.toPy "CallTypes" (resolveEnum Dmr.Hytera.IpSiteConnectProtocol.CallTypes v))) := run_resolve Source.Hytera.IpSiteConnectProtocol.CallTypes enum_IpSiteConnectProtocol_CallTypes (by decide) v

@[py] theorem member_IpSiteConnectProtocol_CallTypes_wakeup_call_2 : member library "Hytera.IpSiteConnectProtocol.CallTypes" "wakeup_call_2" = pure (.pv (.enum "CallTypes" 2)) := member_of enum_IpSiteConnectProtocol_CallTypes rfl

@[py] theorem same_IpSiteConnectProtocol_CallTypes_wakeup_call_2 (on : EnumVal Dmr.Hytera.IpSiteConnectProtocol.CallTypes) :
    same (.pv (EnumVal.toPy "CallTypes" on)) (.pv (.enum "CallTypes" 2)) = decide (on = .known .wakeup_call_2) :=
  same_known _ _ Dmr.Hytera.IpSiteConnectProtocol.CallTypes.wakeup_call_2

@[py] theorem member_IpSiteConnectProtocol_CallTypes_wakeup_call_c : member library "Hytera.IpSiteConnectProtocol.CallTypes" "wakeup_call_c" = pure (.pv (.enum "CallTypes" 12)) := member_of enum_IpSiteConnectProtocol_CallTypes rfl

@[py] theorem same_IpSiteConnectProtocol_CallTypes_wakeup_call_c (on : EnumVal Dmr.Hytera.IpSiteConnectProtocol.CallTypes) :
    same (.pv (EnumVal.toPy "CallTypes" on)) (.pv (.enum "CallTypes" 12)) = decide (on = .known .wakeup_call_c) :=
  same_known _ _ Dmr.Hytera.IpSiteConnectProtocol.CallTypes.wakeup_call_c

theorem enum_IpSiteConnectProtocol_SlotTypes : library.enums.find? (fun e => e.qualified == "Hytera.IpSiteConnectProtocol.SlotTypes") = some Source.Hytera.IpSiteConnectProtocol.SlotTypes := enum_at 9 _ IpSiteConnectProtocol.file 3 Source.Hytera.IpSiteConnectProtocol.SlotTypes rfl

@[py] theorem resolve_IpSiteConnectProtocol_SlotTypes (v : Nat) : resolve library "Hytera.IpSiteConnectProtocol.SlotTypes" (.pv (.int (v : Int))) =
    pure (.pv (EnumVal.toPy "SlotTypes" (resolveEnum Dmr.Hytera.IpSiteConnectProtocol.SlotTypes v))) := run_resolve Source.Hytera.IpSiteConnectProtocol.SlotTypes enum_IpSiteConnectProtocol_SlotTypes (by decide) v

@[py] theorem member_IpSiteConnectProtocol_SlotTypes_slot_type_wakeup_request : member library "Hytera.IpSiteConnectProtocol.SlotTypes" "slot_type_wakeup_request" = pure (.pv (.enum "SlotTypes" 56797)) := member_of enum_IpSiteConnectProtocol_SlotTypes rfl

@[py] theorem same_IpSiteConnectProtocol_SlotTypes_slot_type_wakeup_request (on : EnumVal Dmr.Hytera.IpSiteConnectProtocol.SlotTypes) :
    same (.pv (EnumVal.toPy "SlotTypes" on)) (.pv (.enum "SlotTypes" 56797)) = decide (on = .known .slot_type_wakeup_request) :=
  same_known _ _ Dmr.Hytera.IpSiteConnectProtocol.SlotTypes.slot_type_wakeup_request

theorem enum_IpSiteConnectProtocol_Timeslots : library.enums.find? (fun e => e.qualified == "Hytera.IpSiteConnectProtocol.Timeslots") = some Source.Hytera.IpSiteConnectProtocol.Timeslots := enum_at 9 _ IpSiteConnectProtocol.file 4 Source.Hytera.IpSiteConnectProtocol.Timeslots rfl

@[py] theorem resolve_IpSiteConnectProtocol_Timeslots (v : Nat) : resolve library "Hytera.IpSiteConnectProtocol.Timeslots" (.pv (.int (v : Int))) =
    pure (.pv (EnumVal.toPy "Timeslots" (resolveEnum Dmr.Hytera.IpSiteConnectProtocol.Timeslots v))) := run_resolve Source.Hytera.IpSiteConnectProtocol.Timeslots enum_IpSiteConnectProtocol_Timeslots (by decide) v

theorem IpSiteConnectProtocol_class : library.class "Hytera.IpSiteConnectProtocol" = some Source.Hytera.IpSiteConnectProtocol := class_at 9 _ IpSiteConnectProtocol.file 0 Source.Hytera.IpSiteConnectProtocol rfl

@[py] theorem IpSiteConnectProtocol_property (x : String) : library.property "Hytera.IpSiteConnectProtocol" x = Source.Hytera.IpSiteConnectProtocol.properties.lookup x :=
  property_of _ _ _ _ IpSiteConnectProtocol_class

/-- okdmr/kaitai/hytera/ip_site_connect_protocol.py:15-137 against `Dmr.Hytera.IpSiteConnectProtocol`. -/
@[py] theorem IpSiteConnectProtocol_builds (n : Nat) (H : List Obj) (S : List Stream) (k : Nat) (hk : k < S.length) (s : Stream)
    (parent root : Val) : ((calls library (n + 3)).construct "Hytera.IpSiteConnectProtocol" [.io k, parent, root]).run ⟨H, S.set k s⟩ =
      after Dmr.Hytera.IpSiteConnectProtocol.read s (fun e s' => .raise e ⟨H, S.set k s'⟩)
        (built Dmr.Hytera.IpSiteConnectProtocol.toPy k parent root H S) := by
  rw [construct_eq library _ "Hytera.IpSiteConnectProtocol" _ _ IpSiteConnectProtocol_class rfl rfl]
  py_run [onStream_set _ _ _ _ hk, hk, Dmr.Hytera.IpSiteConnectProtocol.read, Dmr.Hytera.IpSiteConnectProtocol.toPy, Source.Hytera.IpSiteConnectProtocol]

@[py] theorem IpSiteConnectProtocol_short (n k : Nat) : (calls library (n + 3)).construct "Hytera.IpSiteConnectProtocol" [.io k] =
    (calls library (n + 3)).construct "Hytera.IpSiteConnectProtocol" [.io k, .pv .none, .pv .none] := construct_short _ _ _ _ IpSiteConnectProtocol_class rfl _

@[py] theorem IpSiteConnectProtocol_place (io parent root : Val) (b : Nat) (x : Dmr.Hytera.IpSiteConnectProtocol) :
    place io parent root b x.toPy = (.obj b, placeObj io (.pv .none) (.obj b) b x.toPy) :=
  place_file _ _ _ _ _ _ (by decide)

end Dmr.Py.ConformHytera
