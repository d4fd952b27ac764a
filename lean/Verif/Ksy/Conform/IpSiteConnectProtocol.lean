import Verif.Ksy.Conform.Base
/-
Generated by tools/mkconform.py: the schema of `IpSiteConnectProtocol` against the model of the Python classes.
-/

set_option linter.unusedSimpArgs false
set_option maxHeartbeats 1000000

namespace Dmr.Ksy.Hytera

@[ksy] theorem resolve_IpSiteConnectProtocol_SlotTypes (v : Nat) : Hytera.IpSiteConnectProtocol.SlotTypes.resolve v = EnumVal.toPy "SlotTypes" (resolveEnum Dmr.Hytera.IpSiteConnectProtocol.SlotTypes v) :=
  resolve_eq _ (by decide) v

@[ksy ↓] theorem read_IpSiteConnectProtocol_SlotTypes_u2be (ev sub) : readTy ev sub (.primEnum .u2be Hytera.IpSiteConnectProtocol.SlotTypes) =
    asEnum Dmr.Hytera.IpSiteConnectProtocol.SlotTypes readU2be >>= fun e => pure (some (EnumVal.toPy "SlotTypes" e)) :=
  enum_prim resolve_IpSiteConnectProtocol_SlotTypes .u2be readU2be rfl ev sub

@[ksy] theorem member_IpSiteConnectProtocol_SlotTypes_slot_type_wakeup_request : Hytera.IpSiteConnectProtocol.SlotTypes.member "slot_type_wakeup_request" = pure (.enum "SlotTypes" 56797) := rfl

@[ksy] theorem same_IpSiteConnectProtocol_SlotTypes_slot_type_wakeup_request (on : EnumVal Dmr.Hytera.IpSiteConnectProtocol.SlotTypes) :
    same (EnumVal.toPy "SlotTypes" on) (.enum "SlotTypes" 56797) = decide (on = .known .slot_type_wakeup_request) :=
  same_known _ _ Dmr.Hytera.IpSiteConnectProtocol.SlotTypes.slot_type_wakeup_request

@[ksy] theorem resolve_IpSiteConnectProtocol_FrameTypes (v : Nat) : Hytera.IpSiteConnectProtocol.FrameTypes.resolve v = EnumVal.toPy "FrameTypes" (resolveEnum Dmr.Hytera.IpSiteConnectProtocol.FrameTypes v) :=
  resolve_eq _ (by decide) v

@[ksy ↓] theorem read_IpSiteConnectProtocol_FrameTypes_u2be (ev sub) : readTy ev sub (.primEnum .u2be Hytera.IpSiteConnectProtocol.FrameTypes) =
    asEnum Dmr.Hytera.IpSiteConnectProtocol.FrameTypes readU2be >>= fun e => pure (some (EnumVal.toPy "FrameTypes" e)) :=
  enum_prim resolve_IpSiteConnectProtocol_FrameTypes .u2be readU2be rfl ev sub

@[ksy] theorem resolve_IpSiteConnectProtocol_PacketTypes (v : Nat) : Hytera.IpSiteConnectProtocol.PacketTypes.resolve v = EnumVal.toPy "PacketTypes" (resolveEnum Dmr.Hytera.IpSiteConnectProtocol.PacketTypes v) :=
  resolve_eq _ (by decide) v

@[ksy ↓] theorem read_IpSiteConnectProtocol_PacketTypes_u1 (ev sub) : readTy ev sub (.primEnum .u1 Hytera.IpSiteConnectProtocol.PacketTypes) =
    asEnum Dmr.Hytera.IpSiteConnectProtocol.PacketTypes readU1 >>= fun e => pure (some (EnumVal.toPy "PacketTypes" e)) :=
  enum_prim resolve_IpSiteConnectProtocol_PacketTypes .u1 readU1 rfl ev sub

@[ksy] theorem resolve_IpSiteConnectProtocol_Timeslots (v : Nat) : Hytera.IpSiteConnectProtocol.Timeslots.resolve v = EnumVal.toPy "Timeslots" (resolveEnum Dmr.Hytera.IpSiteConnectProtocol.Timeslots v) :=
  resolve_eq _ (by decide) v

@[ksy ↓] theorem read_IpSiteConnectProtocol_Timeslots_u2be (ev sub) : readTy ev sub (.primEnum .u2be Hytera.IpSiteConnectProtocol.Timeslots) =
    asEnum Dmr.Hytera.IpSiteConnectProtocol.Timeslots readU2be >>= fun e => pure (some (EnumVal.toPy "Timeslots" e)) :=
  enum_prim resolve_IpSiteConnectProtocol_Timeslots .u2be readU2be rfl ev sub

@[ksy] theorem resolve_IpSiteConnectProtocol_CallTypes (v : Nat) : Hytera.IpSiteConnectProtocol.CallTypes.resolve v = EnumVal.toPy "CallTypes" (resolveEnum Dmr.Hytera.IpSiteConnectProtocol.CallTypes v) :=
  resolve_eq _ (by decide) v

@[ksy ↓] theorem read_IpSiteConnectProtocol_CallTypes_u1 (ev sub) : readTy ev sub (.primEnum .u1 Hytera.IpSiteConnectProtocol.CallTypes) =
    asEnum Dmr.Hytera.IpSiteConnectProtocol.CallTypes readU1 >>= fun e => pure (some (EnumVal.toPy "CallTypes" e)) :=
  enum_prim resolve_IpSiteConnectProtocol_CallTypes .u1 readU1 rfl ev sub

@[ksy] theorem member_IpSiteConnectProtocol_CallTypes_wakeup_call_2 : Hytera.IpSiteConnectProtocol.CallTypes.member "wakeup_call_2" = pure (.enum "CallTypes" 2) := rfl

@[ksy] theorem same_IpSiteConnectProtocol_CallTypes_wakeup_call_2 (on : EnumVal Dmr.Hytera.IpSiteConnectProtocol.CallTypes) :
    same (EnumVal.toPy "CallTypes" on) (.enum "CallTypes" 2) = decide (on = .known .wakeup_call_2) :=
  same_known _ _ Dmr.Hytera.IpSiteConnectProtocol.CallTypes.wakeup_call_2

@[ksy] theorem member_IpSiteConnectProtocol_CallTypes_wakeup_call_c : Hytera.IpSiteConnectProtocol.CallTypes.member "wakeup_call_c" = pure (.enum "CallTypes" 12) := rfl

@[ksy] theorem same_IpSiteConnectProtocol_CallTypes_wakeup_call_c (on : EnumVal Dmr.Hytera.IpSiteConnectProtocol.CallTypes) :
    same (EnumVal.toPy "CallTypes" on) (.enum "CallTypes" 12) = decide (on = .known .wakeup_call_c) :=
  same_known _ _ Dmr.Hytera.IpSiteConnectProtocol.CallTypes.wakeup_call_c

/-- okdmr/kaitai/hytera/ip_site_connect_protocol.ksy:1-100 against `Dmr.Hytera.IpSiteConnectProtocol`. -/
@[ksy ↓] theorem IpSiteConnectProtocol_conforms (n : Nat) (sc : Scope) :
    parse (n + 1) sc Hytera.IpSiteConnectProtocol = (fun x => view (Dmr.Hytera.IpSiteConnectProtocol.toPy x)) <$> Dmr.Hytera.IpSiteConnectProtocol.read := by
  rw [parse_succ]
  ksy_simp [Dmr.Hytera.IpSiteConnectProtocol.read, Dmr.Hytera.IpSiteConnectProtocol.toPy]

end Dmr.Ksy.Hytera
