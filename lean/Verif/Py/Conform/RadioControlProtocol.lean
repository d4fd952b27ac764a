import Verif.Py.Base
/-
Generated by tools/mkpyconform.py: the source file of `Hytera.RadioControlProtocol` against the model of its classes.
-/

set_option autoImplicit false
set_option linter.unusedSimpArgs false
set_option maxHeartbeats 1000000

namespace Dmr.Py.ConformHytera

theorem RadioControlProtocol.file : files[11]? = some Source.Hytera.RadioControlProtocol.file := rfl

theorem enum_RadioControlProtocol_ServiceTypes : library.enums.find? (fun e => e.qualified == "Hytera.RadioControlProtocol.ServiceTypes") = some Source.Hytera.RadioControlProtocol.ServiceTypes := enum_at 11 _ RadioControlProtocol.file 0 Source.Hytera.RadioControlProtocol.ServiceTypes rfl

@[py] theorem resolve_RadioControlProtocol_ServiceTypes (v : Nat) : resolve library "Hytera.RadioControlProtocol.ServiceTypes" (.pv (.int (v : Int))) =
    pure (.pv (EnumVal.toPy "ServiceTypes" (resolveEnum Dmr.Hytera.RadioControlProtocol.ServiceTypes v))) := run_resolve Source.Hytera.RadioControlProtocol.ServiceTypes enum_RadioControlProtocol_ServiceTypes (by decide) v

@[py] theorem member_RadioControlProtocol_ServiceTypes_broadcast_status_configuration_reply : member library "Hytera.RadioControlProtocol.ServiceTypes" "broadcast_status_configuration_reply" = pure (.pv (.enum "ServiceTypes" 32969)) := member_of enum_RadioControlProtocol_ServiceTypes rfl

@[py] theorem same_RadioControlProtocol_ServiceTypes_broadcast_status_configuration_reply (on : EnumVal Dmr.Hytera.RadioControlProtocol.ServiceTypes) :
    same (.pv (EnumVal.toPy "ServiceTypes" on)) (.pv (.enum "ServiceTypes" 32969)) = decide (on = .known .broadcast_status_configuration_reply) :=
  same_known _ _ Dmr.Hytera.RadioControlProtocol.ServiceTypes.broadcast_status_configuration_reply

@[py] theorem member_RadioControlProtocol_ServiceTypes_broadcast_status_configuration_request : member library "Hytera.RadioControlProtocol.ServiceTypes" "broadcast_status_configuration_request" = pure (.pv (.enum "ServiceTypes" 4297)) := member_of enum_RadioControlProtocol_ServiceTypes rfl

@[py] theorem same_RadioControlProtocol_ServiceTypes_broadcast_status_configuration_request (on : EnumVal Dmr.Hytera.RadioControlProtocol.ServiceTypes) :
    same (.pv (EnumVal.toPy "ServiceTypes" on)) (.pv (.enum "ServiceTypes" 4297)) = decide (on = .known .broadcast_status_configuration_request) :=
  same_known _ _ Dmr.Hytera.RadioControlProtocol.ServiceTypes.broadcast_status_configuration_request

@[py] theorem member_RadioControlProtocol_ServiceTypes_call_reply : member library "Hytera.RadioControlProtocol.ServiceTypes" "call_reply" = pure (.pv (.enum "ServiceTypes" 34881)) := member_of enum_RadioControlProtocol_ServiceTypes rfl

@[py] theorem same_RadioControlProtocol_ServiceTypes_call_reply (on : EnumVal Dmr.Hytera.RadioControlProtocol.ServiceTypes) :
    same (.pv (EnumVal.toPy "ServiceTypes" on)) (.pv (.enum "ServiceTypes" 34881)) = decide (on = .known .call_reply) :=
  same_known _ _ Dmr.Hytera.RadioControlProtocol.ServiceTypes.call_reply

@[py] theorem member_RadioControlProtocol_ServiceTypes_call_request : member library "Hytera.RadioControlProtocol.ServiceTypes" "call_request" = pure (.pv (.enum "ServiceTypes" 2113)) := member_of enum_RadioControlProtocol_ServiceTypes rfl

@[py] theorem same_RadioControlProtocol_ServiceTypes_call_request (on : EnumVal Dmr.Hytera.RadioControlProtocol.ServiceTypes) :
    same (.pv (EnumVal.toPy "ServiceTypes" on)) (.pv (.enum "ServiceTypes" 2113)) = decide (on = .known .call_request) :=
  same_known _ _ Dmr.Hytera.RadioControlProtocol.ServiceTypes.call_request

@[py] theorem member_RadioControlProtocol_ServiceTypes_radio_identification_reply : member library "Hytera.RadioControlProtocol.ServiceTypes" "radio_identification_reply" = pure (.pv (.enum "ServiceTypes" 33492)) := member_of enum_RadioControlProtocol_ServiceTypes rfl

@[py] theorem same_RadioControlProtocol_ServiceTypes_radio_identification_reply (on : EnumVal Dmr.Hytera.RadioControlProtocol.ServiceTypes) :
    same (.pv (EnumVal.toPy "ServiceTypes" on)) (.pv (.enum "ServiceTypes" 33492)) = decide (on = .known .radio_identification_reply) :=
  same_known _ _ Dmr.Hytera.RadioControlProtocol.ServiceTypes.radio_identification_reply

@[py] theorem member_RadioControlProtocol_ServiceTypes_remove_radio_reply : member library "Hytera.RadioControlProtocol.ServiceTypes" "remove_radio_reply" = pure (.pv (.enum "ServiceTypes" 34882)) := member_of enum_RadioControlProtocol_ServiceTypes rfl

@[py] theorem same_RadioControlProtocol_ServiceTypes_remove_radio_reply (on : EnumVal Dmr.Hytera.RadioControlProtocol.ServiceTypes) :
    same (.pv (EnumVal.toPy "ServiceTypes" on)) (.pv (.enum "ServiceTypes" 34882)) = decide (on = .known .remove_radio_reply) :=
  same_known _ _ Dmr.Hytera.RadioControlProtocol.ServiceTypes.remove_radio_reply

@[py] theorem member_RadioControlProtocol_ServiceTypes_remove_radio_request : member library "Hytera.RadioControlProtocol.ServiceTypes" "remove_radio_request" = pure (.pv (.enum "ServiceTypes" 2114)) := member_of enum_RadioControlProtocol_ServiceTypes rfl

@[py] theorem same_RadioControlProtocol_ServiceTypes_remove_radio_request (on : EnumVal Dmr.Hytera.RadioControlProtocol.ServiceTypes) :
    same (.pv (EnumVal.toPy "ServiceTypes" on)) (.pv (.enum "ServiceTypes" 2114)) = decide (on = .known .remove_radio_request) :=
  same_known _ _ Dmr.Hytera.RadioControlProtocol.ServiceTypes.remove_radio_request

theorem enum_RadioControlProtocol_CallTypes : library.enums.find? (fun e => e.qualified == "Hytera.RadioControlProtocol.CallTypes") = some Source.Hytera.RadioControlProtocol.CallTypes := enum_at 11 _ RadioControlProtocol.file 1 Source.Hytera.RadioControlProtocol.CallTypes rfl

@[py] theorem resolve_RadioControlProtocol_CallTypes (v : Nat) : resolve library "Hytera.RadioControlProtocol.CallTypes" (.pv (.int (v : Int))) =
    pure (.pv (EnumVal.toPy "CallTypes" (resolveEnum Dmr.Hytera.RadioControlProtocol.CallTypes v))) := run_resolve Source.Hytera.RadioControlProtocol.CallTypes enum_RadioControlProtocol_CallTypes (by decide) v

theorem enum_RadioControlProtocol_ReplyResults : library.enums.find? (fun e => e.qualified == "Hytera.RadioControlProtocol.ReplyResults") = some Source.Hytera.RadioControlProtocol.ReplyResults := enum_at 11 _ RadioControlProtocol.file 2 Source.Hytera.RadioControlProtocol.ReplyResults rfl

@[py] theorem resolve_RadioControlProtocol_ReplyResults (v : Nat) : resolve library "Hytera.RadioControlProtocol.ReplyResults" (.pv (.int (v : Int))) =
    pure (.pv (EnumVal.toPy "ReplyResults" (resolveEnum Dmr.Hytera.RadioControlProtocol.ReplyResults v))) := run_resolve Source.Hytera.RadioControlProtocol.ReplyResults enum_RadioControlProtocol_ReplyResults (by decide) v

theorem RadioControlProtocol_BroadcastStatusConfigurationReply_class : library.class "Hytera.RadioControlProtocol.BroadcastStatusConfigurationReply" = some Source.Hytera.RadioControlProtocol.BroadcastStatusConfigurationReply := class_at 11 _ RadioControlProtocol.file 0 Source.Hytera.RadioControlProtocol.BroadcastStatusConfigurationReply rfl

/-- okdmr/kaitai/hytera/radio_control_protocol.py:139-149 against `Dmr.Hytera.RadioControlProtocol.BroadcastStatusConfigurationReply`. -/
@[py] theorem RadioControlProtocol_BroadcastStatusConfigurationReply_builds (n : Nat) (H : List Obj) (S : List Stream) (k : Nat) (hk : k < S.length) (s : Stream)
    (parent root : Val) : ((calls library (n + 3)).construct "Hytera.RadioControlProtocol.BroadcastStatusConfigurationReply" [.io k, parent, root]).run ⟨H, S.set k s⟩ =
      after Dmr.Hytera.RadioControlProtocol.BroadcastStatusConfigurationReply.read s (fun e s' => .raise e ⟨H, S.set k s'⟩)
        (built Dmr.Hytera.RadioControlProtocol.BroadcastStatusConfigurationReply.toPy k parent root H S) := by
  rw [construct_eq library _ "Hytera.RadioControlProtocol.BroadcastStatusConfigurationReply" _ _ RadioControlProtocol_BroadcastStatusConfigurationReply_class rfl rfl]
  py_run [onStream_set _ _ _ _ hk, hk, Dmr.Hytera.RadioControlProtocol.BroadcastStatusConfigurationReply.read, Dmr.Hytera.RadioControlProtocol.BroadcastStatusConfigurationReply.toPy]

@[py] theorem RadioControlProtocol_BroadcastStatusConfigurationReply_place (io parent root : Val) (b : Nat) (x : Dmr.Hytera.RadioControlProtocol.BroadcastStatusConfigurationReply) :
    place io parent root b x.toPy = (.obj b, placeObj io parent root b x.toPy) :=
  place_part _ _ _ _ _ _ (by decide)

theorem RadioControlProtocol_BroadcastConfiguration_class : library.class "Hytera.RadioControlProtocol.BroadcastConfiguration" = some Source.Hytera.RadioControlProtocol.BroadcastConfiguration := class_at 11 _ RadioControlProtocol.file 1 Source.Hytera.RadioControlProtocol.BroadcastConfiguration rfl

/-- okdmr/kaitai/hytera/radio_control_protocol.py:151-160 against `Dmr.Hytera.RadioControlProtocol.BroadcastConfiguration`. -/
@[py] theorem RadioControlProtocol_BroadcastConfiguration_builds (n : Nat) (H : List Obj) (S : List Stream) (k : Nat) (hk : k < S.length) (s : Stream)
    (parent root : Val) : ((calls library (n + 3)).construct "Hytera.RadioControlProtocol.BroadcastConfiguration" [.io k, parent, root]).run ⟨H, S.set k s⟩ =
      after Dmr.Hytera.RadioControlProtocol.BroadcastConfiguration.read s (fun e s' => .raise e ⟨H, S.set k s'⟩)
        (built Dmr.Hytera.RadioControlProtocol.BroadcastConfiguration.toPy k parent root H S) := by
  rw [construct_eq library _ "Hytera.RadioControlProtocol.BroadcastConfiguration" _ _ RadioControlProtocol_BroadcastConfiguration_class rfl rfl]
  py_run [onStream_set _ _ _ _ hk, hk, Dmr.Hytera.RadioControlProtocol.BroadcastConfiguration.read, Dmr.Hytera.RadioControlProtocol.BroadcastConfiguration.toPy]

@[py] theorem RadioControlProtocol_BroadcastConfiguration_place (io parent root : Val) (b : Nat) (x : Dmr.Hytera.RadioControlProtocol.BroadcastConfiguration) :
    place io parent root b x.toPy = (.obj b, placeObj io parent root b x.toPy) :=
  place_part _ _ _ _ _ _ (by decide)

theorem RadioControlProtocol_BroadcastStatusConfigurationRequest_class : library.class "Hytera.RadioControlProtocol.BroadcastStatusConfigurationRequest" = some Source.Hytera.RadioControlProtocol.BroadcastStatusConfigurationRequest := class_at 11 _ RadioControlProtocol.file 2 Source.Hytera.RadioControlProtocol.BroadcastStatusConfigurationRequest rfl

/-- okdmr/kaitai/hytera/radio_control_protocol.py:162-179 against `Dmr.Hytera.RadioControlProtocol.BroadcastStatusConfigurationRequest`. -/
@[py] theorem RadioControlProtocol_BroadcastStatusConfigurationRequest_builds (n : Nat) (H : List Obj) (S : List Stream) (k : Nat) (hk : k < S.length) (s : Stream)
    (parent root : Val) : ((calls library (n + 5)).construct "Hytera.RadioControlProtocol.BroadcastStatusConfigurationRequest" [.io k, parent, root]).run ⟨H, S.set k s⟩ =
      after Dmr.Hytera.RadioControlProtocol.BroadcastStatusConfigurationRequest.read s (fun e s' => .raise e ⟨H, S.set k s'⟩)
        (built Dmr.Hytera.RadioControlProtocol.BroadcastStatusConfigurationRequest.toPy k parent root H S) := by
  rw [construct_eq library _ "Hytera.RadioControlProtocol.BroadcastStatusConfigurationRequest" _ _ RadioControlProtocol_BroadcastStatusConfigurationRequest_class rfl rfl]
  py_run [onStream_set _ _ _ _ hk, hk, Dmr.Hytera.RadioControlProtocol.BroadcastStatusConfigurationRequest.read, Dmr.Hytera.RadioControlProtocol.BroadcastStatusConfigurationRequest.toPy]
  refine after_congr (fun _ _ => rfl) fun num s1 => ?_
  exact for_reads (by decide) (r := Dmr.Hytera.RadioControlProtocol.BroadcastConfiguration.read)
    (st := fun l s => ⟨H ++ ⟨"Hytera.RadioControlProtocol.BroadcastStatusConfigurationRequest",
      [("_io", .io k), ("_parent", parent), ("_root", rootOf root H.length), ("num_broadcast_configuration", .pv (.int (num : Int))),
       ("broadcast_configuration", .list (itemValues (.io k) (.obj H.length) (rootOf root H.length) (H.length + 1) (l.map Dmr.Hytera.RadioControlProtocol.BroadcastConfiguration.toPy)))]⟩ ::
        itemParts (.io k) (.obj H.length) (rootOf root H.length) (H.length + 1) (l.map Dmr.Hytera.RadioControlProtocol.BroadcastConfiguration.toPy), S.set k s⟩)
    (E := fun e s' => .raise e ⟨H, S.set k s'⟩) (fun e l s => by py_run [])
    (fun env l s (h : var env "self" = pure (.obj H.length)) => by py_run [h, hk]) (fun env l s h => by py_run [])
    num [("self", .obj H.length)] s1 (by py_run [])

@[py] theorem RadioControlProtocol_BroadcastStatusConfigurationRequest_place (io parent root : Val) (b : Nat) (x : Dmr.Hytera.RadioControlProtocol.BroadcastStatusConfigurationRequest) :
    place io parent root b x.toPy = (.obj b, placeObj io parent root b x.toPy) :=
  place_part _ _ _ _ _ _ (by decide)

theorem RadioControlProtocol_RadioIdentificationReply_class : library.class "Hytera.RadioControlProtocol.RadioIdentificationReply" = some Source.Hytera.RadioControlProtocol.RadioIdentificationReply := class_at 11 _ RadioControlProtocol.file 3 Source.Hytera.RadioControlProtocol.RadioIdentificationReply rfl

/-- okdmr/kaitai/hytera/radio_control_protocol.py:181-196 against `Dmr.Hytera.RadioControlProtocol.RadioIdentificationReply`: it looks up the `message_length` of its `_parent`. -/
theorem RadioControlProtocol_RadioIdentificationReply_builds_at (n : Nat) (H : List Obj) (S : List Stream) (k : Nat) (hk : k < S.length) (s : Stream)
    (p : Nat) (o : Obj) (L : Nat) (hp : H[p]? = some o) (hL : o.attrs.lookup "message_length" = some (.pv (.int (L : Int)))) (root : Val) :
    ((calls library (n + 3)).construct "Hytera.RadioControlProtocol.RadioIdentificationReply" [.io k, .obj p, root]).run ⟨H, S.set k s⟩ =
      after (Dmr.Hytera.RadioControlProtocol.RadioIdentificationReply.read L) s (fun e s' => .raise e ⟨H, S.set k s'⟩)
        (built Dmr.Hytera.RadioControlProtocol.RadioIdentificationReply.toPy k (.obj p) root H S) := by
  rw [construct_eq library _ "Hytera.RadioControlProtocol.RadioIdentificationReply" _ _ RadioControlProtocol_RadioIdentificationReply_class rfl rfl]
  py_run [onStream_set _ _ _ _ hk, hk, fetch_old hp, hL, Dmr.Hytera.RadioControlProtocol.RadioIdentificationReply.read, Dmr.Hytera.RadioControlProtocol.RadioIdentificationReply.toPy]

@[py] theorem RadioControlProtocol_RadioIdentificationReply_builds (n : Nat) (H T : List Obj) (S : List Stream) (k : Nat) (hk : k < S.length) (s : Stream)
    (a0 a1 a2 a3 : Val) (L : Nat) (root : Val) :
    ((calls library (n + 3)).construct "Hytera.RadioControlProtocol.RadioIdentificationReply" [.io k, .obj H.length, root]).run
        ⟨H ++ ⟨"Hytera.RadioControlProtocol", [("_io", a0), ("_parent", a1), ("_root", a2), ("service_type", a3), ("message_length", .pv (.int (L : Int)))]⟩ :: T, S.set k s⟩ =
      after (Dmr.Hytera.RadioControlProtocol.RadioIdentificationReply.read L) s
        (fun e s' => .raise e ⟨H ++ ⟨"Hytera.RadioControlProtocol", [("_io", a0), ("_parent", a1), ("_root", a2), ("service_type", a3), ("message_length", .pv (.int (L : Int)))]⟩ :: T, S.set k s'⟩)
        (built Dmr.Hytera.RadioControlProtocol.RadioIdentificationReply.toPy k (.obj H.length) root (H ++ ⟨"Hytera.RadioControlProtocol", [("_io", a0), ("_parent", a1), ("_root", a2), ("service_type", a3), ("message_length", .pv (.int (L : Int)))]⟩ :: T) S) := by
  refine RadioControlProtocol_RadioIdentificationReply_builds_at n _ S k hk s _ ⟨"Hytera.RadioControlProtocol", [("_io", a0), ("_parent", a1), ("_root", a2), ("service_type", a3), ("message_length", .pv (.int (L : Int)))]⟩ L (by simp) ?_ root
  py_run []

@[py] theorem RadioControlProtocol_RadioIdentificationReply_place (io parent root : Val) (b : Nat) (x : Dmr.Hytera.RadioControlProtocol.RadioIdentificationReply) :
    place io parent root b x.toPy = (.obj b, placeObj io parent root b x.toPy) :=
  place_part _ _ _ _ _ _ (by decide)

theorem RadioControlProtocol_GenericData_class : library.class "Hytera.RadioControlProtocol.GenericData" = some Source.Hytera.RadioControlProtocol.GenericData := class_at 11 _ RadioControlProtocol.file 4 Source.Hytera.RadioControlProtocol.GenericData rfl

/-- okdmr/kaitai/hytera/radio_control_protocol.py:198-206 against `Dmr.Hytera.RadioControlProtocol.GenericData`: it looks up the `message_length` of its `_parent`. -/
theorem RadioControlProtocol_GenericData_builds_at (n : Nat) (H : List Obj) (S : List Stream) (k : Nat) (hk : k < S.length) (s : Stream)
    (p : Nat) (o : Obj) (L : Nat) (hp : H[p]? = some o) (hL : o.attrs.lookup "message_length" = some (.pv (.int (L : Int)))) (root : Val) :
    ((calls library (n + 3)).construct "Hytera.RadioControlProtocol.GenericData" [.io k, .obj p, root]).run ⟨H, S.set k s⟩ =
      after (Dmr.Hytera.RadioControlProtocol.GenericData.read L) s (fun e s' => .raise e ⟨H, S.set k s'⟩)
        (built Dmr.Hytera.RadioControlProtocol.GenericData.toPy k (.obj p) root H S) := by
  rw [construct_eq library _ "Hytera.RadioControlProtocol.GenericData" _ _ RadioControlProtocol_GenericData_class rfl rfl]
  py_run [onStream_set _ _ _ _ hk, hk, fetch_old hp, hL, Dmr.Hytera.RadioControlProtocol.GenericData.read, Dmr.Hytera.RadioControlProtocol.GenericData.toPy]

@[py] theorem RadioControlProtocol_GenericData_builds (n : Nat) (H T : List Obj) (S : List Stream) (k : Nat) (hk : k < S.length) (s : Stream)
    (a0 a1 a2 a3 : Val) (L : Nat) (root : Val) :
    ((calls library (n + 3)).construct "Hytera.RadioControlProtocol.GenericData" [.io k, .obj H.length, root]).run
        ⟨H ++ ⟨"Hytera.RadioControlProtocol", [("_io", a0), ("_parent", a1), ("_root", a2), ("service_type", a3), ("message_length", .pv (.int (L : Int)))]⟩ :: T, S.set k s⟩ =
      after (Dmr.Hytera.RadioControlProtocol.GenericData.read L) s
        (fun e s' => .raise e ⟨H ++ ⟨"Hytera.RadioControlProtocol", [("_io", a0), ("_parent", a1), ("_root", a2), ("service_type", a3), ("message_length", .pv (.int (L : Int)))]⟩ :: T, S.set k s'⟩)
        (built Dmr.Hytera.RadioControlProtocol.GenericData.toPy k (.obj H.length) root (H ++ ⟨"Hytera.RadioControlProtocol", [("_io", a0), ("_parent", a1), ("_root", a2), ("service_type", a3), ("message_length", .pv (.int (L : Int)))]⟩ :: T) S) := by
  refine RadioControlProtocol_GenericData_builds_at n _ S k hk s _ ⟨"Hytera.RadioControlProtocol", [("_io", a0), ("_parent", a1), ("_root", a2), ("service_type", a3), ("message_length", .pv (.int (L : Int)))]⟩ L (by simp) ?_ root
  py_run []

@[py] theorem RadioControlProtocol_GenericData_place (io parent root : Val) (b : Nat) (x : Dmr.Hytera.RadioControlProtocol.GenericData) :
    place io parent root b x.toPy = (.obj b, placeObj io parent root b x.toPy) :=
  place_part _ _ _ _ _ _ (by decide)

theorem RadioControlProtocol_CallRequest_class : library.class "Hytera.RadioControlProtocol.CallRequest" = some Source.Hytera.RadioControlProtocol.CallRequest := class_at 11 _ RadioControlProtocol.file 5 Source.Hytera.RadioControlProtocol.CallRequest rfl

/-- okdmr/kaitai/hytera/radio_control_protocol.py:208-219 against `Dmr.Hytera.RadioControlProtocol.CallRequest`. -/
@[py] theorem RadioControlProtocol_CallRequest_builds (n : Nat) (H : List Obj) (S : List Stream) (k : Nat) (hk : k < S.length) (s : Stream)
    (parent root : Val) : ((calls library (n + 3)).construct "Hytera.RadioControlProtocol.CallRequest" [.io k, parent, root]).run ⟨H, S.set k s⟩ =
      after Dmr.Hytera.RadioControlProtocol.CallRequest.read s (fun e s' => .raise e ⟨H, S.set k s'⟩)
        (built Dmr.Hytera.RadioControlProtocol.CallRequest.toPy k parent root H S) := by
  rw [construct_eq library _ "Hytera.RadioControlProtocol.CallRequest" _ _ RadioControlProtocol_CallRequest_class rfl rfl]
  py_run [onStream_set _ _ _ _ hk, hk, Dmr.Hytera.RadioControlProtocol.CallRequest.read, Dmr.Hytera.RadioControlProtocol.CallRequest.toPy]

@[py] theorem RadioControlProtocol_CallRequest_place (io parent root : Val) (b : Nat) (x : Dmr.Hytera.RadioControlProtocol.CallRequest) :
    place io parent root b x.toPy = (.obj b, placeObj io parent root b x.toPy) :=
  place_part _ _ _ _ _ _ (by decide)

theorem RadioControlProtocol_RemoveRadioReply_class : library.class "Hytera.RadioControlProtocol.RemoveRadioReply" = some Source.Hytera.RadioControlProtocol.RemoveRadioReply := class_at 11 _ RadioControlProtocol.file 6 Source.Hytera.RadioControlProtocol.RemoveRadioReply rfl

/-- okdmr/kaitai/hytera/radio_control_protocol.py:221-233 against `Dmr.Hytera.RadioControlProtocol.RemoveRadioReply`. -/
@[py] theorem RadioControlProtocol_RemoveRadioReply_builds (n : Nat) (H : List Obj) (S : List Stream) (k : Nat) (hk : k < S.length) (s : Stream)
    (parent root : Val) : ((calls library (n + 3)).construct "Hytera.RadioControlProtocol.RemoveRadioReply" [.io k, parent, root]).run ⟨H, S.set k s⟩ =
      after Dmr.Hytera.RadioControlProtocol.RemoveRadioReply.read s (fun e s' => .raise e ⟨H, S.set k s'⟩)
        (built Dmr.Hytera.RadioControlProtocol.RemoveRadioReply.toPy k parent root H S) := by
  rw [construct_eq library _ "Hytera.RadioControlProtocol.RemoveRadioReply" _ _ RadioControlProtocol_RemoveRadioReply_class rfl rfl]
  py_run [onStream_set _ _ _ _ hk, hk, Dmr.Hytera.RadioControlProtocol.RemoveRadioReply.read, Dmr.Hytera.RadioControlProtocol.RemoveRadioReply.toPy]

@[py] theorem RadioControlProtocol_RemoveRadioReply_place (io parent root : Val) (b : Nat) (x : Dmr.Hytera.RadioControlProtocol.RemoveRadioReply) :
    place io parent root b x.toPy = (.obj b, placeObj io parent root b x.toPy) :=
  place_part _ _ _ _ _ _ (by decide)

theorem RadioControlProtocol_RemoveRadioRequest_class : library.class "Hytera.RadioControlProtocol.RemoveRadioRequest" = some Source.Hytera.RadioControlProtocol.RemoveRadioRequest := class_at 11 _ RadioControlProtocol.file 7 Source.Hytera.RadioControlProtocol.RemoveRadioRequest rfl

/-- okdmr/kaitai/hytera/radio_control_protocol.py:235-247 against `Dmr.Hytera.RadioControlProtocol.RemoveRadioRequest`. -/
@[py] theorem RadioControlProtocol_RemoveRadioRequest_builds (n : Nat) (H : List Obj) (S : List Stream) (k : Nat) (hk : k < S.length) (s : Stream)
    (parent root : Val) : ((calls library (n + 3)).construct "Hytera.RadioControlProtocol.RemoveRadioRequest" [.io k, parent, root]).run ⟨H, S.set k s⟩ =
      after Dmr.Hytera.RadioControlProtocol.RemoveRadioRequest.read s (fun e s' => .raise e ⟨H, S.set k s'⟩)
        (built Dmr.Hytera.RadioControlProtocol.RemoveRadioRequest.toPy k parent root H S) := by
  rw [construct_eq library _ "Hytera.RadioControlProtocol.RemoveRadioRequest" _ _ RadioControlProtocol_RemoveRadioRequest_class rfl rfl]
  py_run [onStream_set _ _ _ _ hk, hk, Dmr.Hytera.RadioControlProtocol.RemoveRadioRequest.read, Dmr.Hytera.RadioControlProtocol.RemoveRadioRequest.toPy]

@[py] theorem RadioControlProtocol_RemoveRadioRequest_place (io parent root : Val) (b : Nat) (x : Dmr.Hytera.RadioControlProtocol.RemoveRadioRequest) :
    place io parent root b x.toPy = (.obj b, placeObj io parent root b x.toPy) :=
  place_part _ _ _ _ _ _ (by decide)

theorem RadioControlProtocol_CallReply_class : library.class "Hytera.RadioControlProtocol.CallReply" = some Source.Hytera.RadioControlProtocol.CallReply := class_at 11 _ RadioControlProtocol.file 8 Source.Hytera.RadioControlProtocol.CallReply rfl

/-- okdmr/kaitai/hytera/radio_control_protocol.py:249-259 against `Dmr.Hytera.RadioControlProtocol.CallReply`. -/
@[py] theorem RadioControlProtocol_CallReply_builds (n : Nat) (H : List Obj) (S : List Stream) (k : Nat) (hk : k < S.length) (s : Stream)
    (parent root : Val) : ((calls library (n + 3)).construct "Hytera.RadioControlProtocol.CallReply" [.io k, parent, root]).run ⟨H, S.set k s⟩ =
      after Dmr.Hytera.RadioControlProtocol.CallReply.read s (fun e s' => .raise e ⟨H, S.set k s'⟩)
        (built Dmr.Hytera.RadioControlProtocol.CallReply.toPy k parent root H S) := by
  rw [construct_eq library _ "Hytera.RadioControlProtocol.CallReply" _ _ RadioControlProtocol_CallReply_class rfl rfl]
  py_run [onStream_set _ _ _ _ hk, hk, Dmr.Hytera.RadioControlProtocol.CallReply.read, Dmr.Hytera.RadioControlProtocol.CallReply.toPy]

@[py] theorem RadioControlProtocol_CallReply_place (io parent root : Val) (b : Nat) (x : Dmr.Hytera.RadioControlProtocol.CallReply) :
    place io parent root b x.toPy = (.obj b, placeObj io parent root b x.toPy) :=
  place_part _ _ _ _ _ _ (by decide)

theorem RadioControlProtocol_class : library.class "Hytera.RadioControlProtocol" = some Source.Hytera.RadioControlProtocol := class_at 11 _ RadioControlProtocol.file 9 Source.Hytera.RadioControlProtocol rfl

/-- okdmr/kaitai/hytera/radio_control_protocol.py:15-259 against `Dmr.Hytera.RadioControlProtocol`. -/
@[py] theorem RadioControlProtocol_builds (n : Nat) (H : List Obj) (S : List Stream) (k : Nat) (hk : k < S.length) (s : Stream)
    (parent root : Val) : ((calls library (n + 7)).construct "Hytera.RadioControlProtocol" [.io k, parent, root]).run ⟨H, S.set k s⟩ =
      after Dmr.Hytera.RadioControlProtocol.read s (fun e s' => .raise e ⟨H, S.set k s'⟩)
        (built Dmr.Hytera.RadioControlProtocol.toPy k parent root H S) := by
  rw [construct_eq library _ "Hytera.RadioControlProtocol" _ _ RadioControlProtocol_class rfl rfl]
  py_run [onStream_set _ _ _ _ hk, hk, Dmr.Hytera.RadioControlProtocol.read, Dmr.Hytera.RadioControlProtocol.toPy, Dmr.Hytera.RadioControlProtocol.readData, Dmr.Hytera.RadioControlProtocol.DataUnion.toPy]

@[py] theorem RadioControlProtocol_short (n k : Nat) : (calls library (n + 7)).construct "Hytera.RadioControlProtocol" [.io k] =
    (calls library (n + 7)).construct "Hytera.RadioControlProtocol" [.io k, .pv .none, .pv .none] := construct_short _ _ _ _ RadioControlProtocol_class rfl _

@[py] theorem RadioControlProtocol_place (io parent root : Val) (b : Nat) (x : Dmr.Hytera.RadioControlProtocol) :
    place io parent root b x.toPy = (.obj b, placeObj io (.pv .none) (.obj b) b x.toPy) :=
  place_file _ _ _ _ _ _ (by decide)

end Dmr.Py.ConformHytera
