import Verif.Ksy.Conform.Base
/-
Generated by tools/mkconform.py: the schema of `RadioControlProtocol` against the model of the Python classes.
-/

set_option linter.unusedSimpArgs false
set_option maxHeartbeats 1000000

namespace Dmr.Ksy.Hytera

@[ksy] theorem resolve_RadioControlProtocol_ServiceTypes (v : Nat) : Hytera.RadioControlProtocol.ServiceTypes.resolve v = EnumVal.toPy "ServiceTypes" (resolveEnum Dmr.Hytera.RadioControlProtocol.ServiceTypes v) :=
  resolve_eq _ (by decide) v

@[ksy ↓] theorem read_RadioControlProtocol_ServiceTypes_u2le (ev sub) : readTy ev sub (.primEnum .u2le Hytera.RadioControlProtocol.ServiceTypes) =
    asEnum Dmr.Hytera.RadioControlProtocol.ServiceTypes readU2le >>= fun e => pure (some (EnumVal.toPy "ServiceTypes" e)) :=
  enum_prim resolve_RadioControlProtocol_ServiceTypes .u2le readU2le rfl ev sub

@[ksy] theorem member_RadioControlProtocol_ServiceTypes_broadcast_status_configuration_reply : Hytera.RadioControlProtocol.ServiceTypes.member "broadcast_status_configuration_reply" = pure (.enum "ServiceTypes" 32969) := rfl

@[ksy] theorem same_RadioControlProtocol_ServiceTypes_broadcast_status_configuration_reply (on : EnumVal Dmr.Hytera.RadioControlProtocol.ServiceTypes) :
    same (EnumVal.toPy "ServiceTypes" on) (.enum "ServiceTypes" 32969) = decide (on = .known .broadcast_status_configuration_reply) :=
  same_known _ _ Dmr.Hytera.RadioControlProtocol.ServiceTypes.broadcast_status_configuration_reply

@[ksy] theorem member_RadioControlProtocol_ServiceTypes_broadcast_status_configuration_request : Hytera.RadioControlProtocol.ServiceTypes.member "broadcast_status_configuration_request" = pure (.enum "ServiceTypes" 4297) := rfl

@[ksy] theorem same_RadioControlProtocol_ServiceTypes_broadcast_status_configuration_request (on : EnumVal Dmr.Hytera.RadioControlProtocol.ServiceTypes) :
    same (EnumVal.toPy "ServiceTypes" on) (.enum "ServiceTypes" 4297) = decide (on = .known .broadcast_status_configuration_request) :=
  same_known _ _ Dmr.Hytera.RadioControlProtocol.ServiceTypes.broadcast_status_configuration_request

@[ksy] theorem member_RadioControlProtocol_ServiceTypes_call_reply : Hytera.RadioControlProtocol.ServiceTypes.member "call_reply" = pure (.enum "ServiceTypes" 34881) := rfl

@[ksy] theorem same_RadioControlProtocol_ServiceTypes_call_reply (on : EnumVal Dmr.Hytera.RadioControlProtocol.ServiceTypes) :
    same (EnumVal.toPy "ServiceTypes" on) (.enum "ServiceTypes" 34881) = decide (on = .known .call_reply) :=
  same_known _ _ Dmr.Hytera.RadioControlProtocol.ServiceTypes.call_reply

@[ksy] theorem member_RadioControlProtocol_ServiceTypes_call_request : Hytera.RadioControlProtocol.ServiceTypes.member "call_request" = pure (.enum "ServiceTypes" 2113) := rfl

@[ksy] theorem same_RadioControlProtocol_ServiceTypes_call_request (on : EnumVal Dmr.Hytera.RadioControlProtocol.ServiceTypes) :
    same (EnumVal.toPy "ServiceTypes" on) (.enum "ServiceTypes" 2113) = decide (on = .known .call_request) :=
  same_known _ _ Dmr.Hytera.RadioControlProtocol.ServiceTypes.call_request

@[ksy] theorem member_RadioControlProtocol_ServiceTypes_radio_identification_reply : Hytera.RadioControlProtocol.ServiceTypes.member "radio_identification_reply" = pure (.enum "ServiceTypes" 33492) := rfl

@[ksy] theorem same_RadioControlProtocol_ServiceTypes_radio_identification_reply (on : EnumVal Dmr.Hytera.RadioControlProtocol.ServiceTypes) :
    same (EnumVal.toPy "ServiceTypes" on) (.enum "ServiceTypes" 33492) = decide (on = .known .radio_identification_reply) :=
  same_known _ _ Dmr.Hytera.RadioControlProtocol.ServiceTypes.radio_identification_reply

@[ksy] theorem member_RadioControlProtocol_ServiceTypes_remove_radio_reply : Hytera.RadioControlProtocol.ServiceTypes.member "remove_radio_reply" = pure (.enum "ServiceTypes" 34882) := rfl

@[ksy] theorem same_RadioControlProtocol_ServiceTypes_remove_radio_reply (on : EnumVal Dmr.Hytera.RadioControlProtocol.ServiceTypes) :
    same (EnumVal.toPy "ServiceTypes" on) (.enum "ServiceTypes" 34882) = decide (on = .known .remove_radio_reply) :=
  same_known _ _ Dmr.Hytera.RadioControlProtocol.ServiceTypes.remove_radio_reply

@[ksy] theorem member_RadioControlProtocol_ServiceTypes_remove_radio_request : Hytera.RadioControlProtocol.ServiceTypes.member "remove_radio_request" = pure (.enum "ServiceTypes" 2114) := rfl

@[ksy] theorem same_RadioControlProtocol_ServiceTypes_remove_radio_request (on : EnumVal Dmr.Hytera.RadioControlProtocol.ServiceTypes) :
    same (EnumVal.toPy "ServiceTypes" on) (.enum "ServiceTypes" 2114) = decide (on = .known .remove_radio_request) :=
  same_known _ _ Dmr.Hytera.RadioControlProtocol.ServiceTypes.remove_radio_request

@[ksy] theorem resolve_RadioControlProtocol_CallTypes (v : Nat) : Hytera.RadioControlProtocol.CallTypes.resolve v = EnumVal.toPy "CallTypes" (resolveEnum Dmr.Hytera.RadioControlProtocol.CallTypes v) :=
  resolve_eq _ (by decide) v

@[ksy ↓] theorem read_RadioControlProtocol_CallTypes_u1 (ev sub) : readTy ev sub (.primEnum .u1 Hytera.RadioControlProtocol.CallTypes) =
    asEnum Dmr.Hytera.RadioControlProtocol.CallTypes readU1 >>= fun e => pure (some (EnumVal.toPy "CallTypes" e)) :=
  enum_prim resolve_RadioControlProtocol_CallTypes .u1 readU1 rfl ev sub

@[ksy] theorem resolve_RadioControlProtocol_ReplyResults (v : Nat) : Hytera.RadioControlProtocol.ReplyResults.resolve v = EnumVal.toPy "ReplyResults" (resolveEnum Dmr.Hytera.RadioControlProtocol.ReplyResults v) :=
  resolve_eq _ (by decide) v

@[ksy ↓] theorem read_RadioControlProtocol_ReplyResults_u1 (ev sub) : readTy ev sub (.primEnum .u1 Hytera.RadioControlProtocol.ReplyResults) =
    asEnum Dmr.Hytera.RadioControlProtocol.ReplyResults readU1 >>= fun e => pure (some (EnumVal.toPy "ReplyResults" e)) :=
  enum_prim resolve_RadioControlProtocol_ReplyResults .u1 readU1 rfl ev sub

/-- okdmr/kaitai/hytera/radio_control_protocol.ksy:81-87 against `Dmr.Hytera.RadioControlProtocol.CallRequest`. -/
@[ksy ↓] theorem RadioControlProtocol_CallRequest_conforms (n : Nat) (sc : Scope) :
    parse (n + 1) sc Hytera.RadioControlProtocol.CallRequest = (fun x => view (Dmr.Hytera.RadioControlProtocol.CallRequest.toPy x)) <$> Dmr.Hytera.RadioControlProtocol.CallRequest.read := by
  rw [parse_succ]
  ksy_simp [Dmr.Hytera.RadioControlProtocol.CallRequest.read, Dmr.Hytera.RadioControlProtocol.CallRequest.toPy]

/-- okdmr/kaitai/hytera/radio_control_protocol.ksy:89-92 against `Dmr.Hytera.RadioControlProtocol.CallReply`. -/
@[ksy ↓] theorem RadioControlProtocol_CallReply_conforms (n : Nat) (sc : Scope) :
    parse (n + 1) sc Hytera.RadioControlProtocol.CallReply = (fun x => view (Dmr.Hytera.RadioControlProtocol.CallReply.toPy x)) <$> Dmr.Hytera.RadioControlProtocol.CallReply.read := by
  rw [parse_succ]
  ksy_simp [Dmr.Hytera.RadioControlProtocol.CallReply.read, Dmr.Hytera.RadioControlProtocol.CallReply.toPy]

/-- okdmr/kaitai/hytera/radio_control_protocol.ksy type `GenericData`, in an object whose `message_length` is `len`, against
`Dmr.Hytera.RadioControlProtocol.GenericData`. -/
theorem RadioControlProtocol_GenericData_conforms (n : Nat) (sc : Scope) (len : Nat)
    (h : sc.self.attrs.lookup "message_length" = some (.int (Int.ofNat len))) :
    parse (n + 1) sc Hytera.RadioControlProtocol.GenericData =
      (fun x => view (Dmr.Hytera.RadioControlProtocol.GenericData.toPy x)) <$> Dmr.Hytera.RadioControlProtocol.GenericData.read len := by
  rw [parse_succ]
  ksy_simp [Dmr.Hytera.RadioControlProtocol.GenericData.read, Dmr.Hytera.RadioControlProtocol.GenericData.toPy, h]

/-- okdmr/kaitai/hytera/radio_control_protocol.ksy:98-100 against `Dmr.Hytera.RadioControlProtocol.RemoveRadioRequest`. -/
@[ksy ↓] theorem RadioControlProtocol_RemoveRadioRequest_conforms (n : Nat) (sc : Scope) :
    parse (n + 1) sc Hytera.RadioControlProtocol.RemoveRadioRequest = (fun x => view (Dmr.Hytera.RadioControlProtocol.RemoveRadioRequest.toPy x)) <$> Dmr.Hytera.RadioControlProtocol.RemoveRadioRequest.read := by
  rw [parse_succ]
  ksy_simp [Dmr.Hytera.RadioControlProtocol.RemoveRadioRequest.read, Dmr.Hytera.RadioControlProtocol.RemoveRadioRequest.toPy]

/-- okdmr/kaitai/hytera/radio_control_protocol.ksy:102-106 against `Dmr.Hytera.RadioControlProtocol.RemoveRadioReply`. -/
@[ksy ↓] theorem RadioControlProtocol_RemoveRadioReply_conforms (n : Nat) (sc : Scope) :
    parse (n + 1) sc Hytera.RadioControlProtocol.RemoveRadioReply = (fun x => view (Dmr.Hytera.RadioControlProtocol.RemoveRadioReply.toPy x)) <$> Dmr.Hytera.RadioControlProtocol.RemoveRadioReply.read := by
  rw [parse_succ]
  ksy_simp [Dmr.Hytera.RadioControlProtocol.RemoveRadioReply.read, Dmr.Hytera.RadioControlProtocol.RemoveRadioReply.toPy]

/-- okdmr/kaitai/hytera/radio_control_protocol.ksy:108-114 against `Dmr.Hytera.RadioControlProtocol.BroadcastConfiguration`. -/
@[ksy ↓] theorem RadioControlProtocol_BroadcastConfiguration_conforms (n : Nat) (sc : Scope) :
    parse (n + 1) sc Hytera.RadioControlProtocol.BroadcastConfiguration = (fun x => view (Dmr.Hytera.RadioControlProtocol.BroadcastConfiguration.toPy x)) <$> Dmr.Hytera.RadioControlProtocol.BroadcastConfiguration.read := by
  rw [parse_succ]
  ksy_simp [Dmr.Hytera.RadioControlProtocol.BroadcastConfiguration.read, Dmr.Hytera.RadioControlProtocol.BroadcastConfiguration.toPy]

/-- okdmr/kaitai/hytera/radio_control_protocol.ksy:116-123 against `Dmr.Hytera.RadioControlProtocol.BroadcastStatusConfigurationRequest`. -/
@[ksy ↓] theorem RadioControlProtocol_BroadcastStatusConfigurationRequest_conforms (n : Nat) (sc : Scope) :
    parse (n + 2) sc Hytera.RadioControlProtocol.BroadcastStatusConfigurationRequest = (fun x => view (Dmr.Hytera.RadioControlProtocol.BroadcastStatusConfigurationRequest.toPy x)) <$> Dmr.Hytera.RadioControlProtocol.BroadcastStatusConfigurationRequest.read := by
  rw [parse_succ]
  ksy_simp [Dmr.Hytera.RadioControlProtocol.BroadcastStatusConfigurationRequest.read, Dmr.Hytera.RadioControlProtocol.BroadcastStatusConfigurationRequest.toPy]

/-- okdmr/kaitai/hytera/radio_control_protocol.ksy:125-128 against `Dmr.Hytera.RadioControlProtocol.BroadcastStatusConfigurationReply`. -/
@[ksy ↓] theorem RadioControlProtocol_BroadcastStatusConfigurationReply_conforms (n : Nat) (sc : Scope) :
    parse (n + 1) sc Hytera.RadioControlProtocol.BroadcastStatusConfigurationReply = (fun x => view (Dmr.Hytera.RadioControlProtocol.BroadcastStatusConfigurationReply.toPy x)) <$> Dmr.Hytera.RadioControlProtocol.BroadcastStatusConfigurationReply.read := by
  rw [parse_succ]
  ksy_simp [Dmr.Hytera.RadioControlProtocol.BroadcastStatusConfigurationReply.read, Dmr.Hytera.RadioControlProtocol.BroadcastStatusConfigurationReply.toPy]

/-- okdmr/kaitai/hytera/radio_control_protocol.ksy type `RadioIdentificationReply`, in an object whose `message_length` is `len`, against
`Dmr.Hytera.RadioControlProtocol.RadioIdentificationReply`. -/
theorem RadioControlProtocol_RadioIdentificationReply_conforms (n : Nat) (sc : Scope) (len : Nat)
    (h : sc.self.attrs.lookup "message_length" = some (.int (Int.ofNat len))) :
    parse (n + 1) sc Hytera.RadioControlProtocol.RadioIdentificationReply =
      (fun x => view (Dmr.Hytera.RadioControlProtocol.RadioIdentificationReply.toPy x)) <$> Dmr.Hytera.RadioControlProtocol.RadioIdentificationReply.read len := by
  rw [parse_succ]
  ksy_simp [Dmr.Hytera.RadioControlProtocol.RadioIdentificationReply.read, Dmr.Hytera.RadioControlProtocol.RadioIdentificationReply.toPy, h]

/-- okdmr/kaitai/hytera/radio_control_protocol.ksy against `Dmr.Hytera.RadioControlProtocol`. -/
@[ksy ↓] theorem RadioControlProtocol_conforms (n : Nat) (sc : Scope) :
    parse (n + 3) sc Hytera.RadioControlProtocol =
      (fun x => view (Dmr.Hytera.RadioControlProtocol.toPy x)) <$> Dmr.Hytera.RadioControlProtocol.read := by
  rw [parse_succ]
  ksy_simp [Dmr.Hytera.RadioControlProtocol.read, Dmr.Hytera.RadioControlProtocol.toPy]
  ksy_same
  rename EnumVal Dmr.Hytera.RadioControlProtocol.ServiceTypes => on
  rename Nat => len
  rcases on with e | v
  · cases e <;> ksy_simp [Dmr.Hytera.RadioControlProtocol.readData, Dmr.Hytera.RadioControlProtocol.DataUnion.toPy,
      RadioControlProtocol_GenericData_conforms _ _ len, RadioControlProtocol_RadioIdentificationReply_conforms _ _ len,
      EnumVal.known.injEq, reduceCtorEq, decide_false, decide_true, decide_eq_true_eq]
  · ksy_simp [Dmr.Hytera.RadioControlProtocol.readData, Dmr.Hytera.RadioControlProtocol.DataUnion.toPy,
      RadioControlProtocol_GenericData_conforms _ _ len,
      EnumVal.known.injEq, reduceCtorEq, decide_false, decide_true, decide_eq_true_eq]

end Dmr.Ksy.Hytera
