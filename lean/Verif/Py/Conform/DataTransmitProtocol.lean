import Verif.Py.Base
import Verif.Py.Conform.RadioIp
/-
Generated by tools/mkpyconform.py: the source file of `Hytera.DataTransmitProtocol` against the model of its classes.
-/

set_option autoImplicit false
set_option linter.unusedSimpArgs false
set_option maxHeartbeats 1000000

namespace Dmr.Py.ConformHytera

theorem DataTransmitProtocol.file : files[1]? = some Source.Hytera.DataTransmitProtocol.file := rfl

theorem enum_DataTransmitProtocol_ServiceTypes : library.enums.find? (fun e => e.qualified == "Hytera.DataTransmitProtocol.ServiceTypes") = some Source.Hytera.DataTransmitProtocol.ServiceTypes := enum_at 1 _ DataTransmitProtocol.file 0 Source.Hytera.DataTransmitProtocol.ServiceTypes rfl

@[py] theorem resolve_DataTransmitProtocol_ServiceTypes (v : Nat) : resolve library "Hytera.DataTransmitProtocol.ServiceTypes" (.pv (.int (v : Int))) =
    pure (.pv (EnumVal.toPy "ServiceTypes" (resolveEnum Dmr.Hytera.DataTransmitProtocol.ServiceTypes v))) := run_resolve Source.Hytera.DataTransmitProtocol.ServiceTypes enum_DataTransmitProtocol_ServiceTypes (by decide) v

theorem enum_DataTransmitProtocol_ServiceSpecificTypes : library.enums.find? (fun e => e.qualified == "Hytera.DataTransmitProtocol.ServiceSpecificTypes") = some Source.Hytera.DataTransmitProtocol.ServiceSpecificTypes := enum_at 1 _ DataTransmitProtocol.file 1 Source.Hytera.DataTransmitProtocol.ServiceSpecificTypes rfl

@[py] theorem resolve_DataTransmitProtocol_ServiceSpecificTypes (v : Nat) : resolve library "Hytera.DataTransmitProtocol.ServiceSpecificTypes" (.pv (.int (v : Int))) =
    pure (.pv (EnumVal.toPy "ServiceSpecificTypes" (resolveEnum Dmr.Hytera.DataTransmitProtocol.ServiceSpecificTypes v))) := run_resolve Source.Hytera.DataTransmitProtocol.ServiceSpecificTypes enum_DataTransmitProtocol_ServiceSpecificTypes (by decide) v

@[py] theorem member_DataTransmitProtocol_ServiceSpecificTypes_data_slice_answer : member library "Hytera.DataTransmitProtocol.ServiceSpecificTypes" "data_slice_answer" = pure (.pv (.enum "ServiceSpecificTypes" 18)) := member_of enum_DataTransmitProtocol_ServiceSpecificTypes rfl

@[py] theorem same_DataTransmitProtocol_ServiceSpecificTypes_data_slice_answer (on : EnumVal Dmr.Hytera.DataTransmitProtocol.ServiceSpecificTypes) :
    same (.pv (EnumVal.toPy "ServiceSpecificTypes" on)) (.pv (.enum "ServiceSpecificTypes" 18)) = decide (on = .known .data_slice_answer) :=
  same_known _ _ Dmr.Hytera.DataTransmitProtocol.ServiceSpecificTypes.data_slice_answer

@[py] theorem member_DataTransmitProtocol_ServiceSpecificTypes_data_slice_transmit : member library "Hytera.DataTransmitProtocol.ServiceSpecificTypes" "data_slice_transmit" = pure (.pv (.enum "ServiceSpecificTypes" 2)) := member_of enum_DataTransmitProtocol_ServiceSpecificTypes rfl

@[py] theorem same_DataTransmitProtocol_ServiceSpecificTypes_data_slice_transmit (on : EnumVal Dmr.Hytera.DataTransmitProtocol.ServiceSpecificTypes) :
    same (.pv (EnumVal.toPy "ServiceSpecificTypes" on)) (.pv (.enum "ServiceSpecificTypes" 2)) = decide (on = .known .data_slice_transmit) :=
  same_known _ _ Dmr.Hytera.DataTransmitProtocol.ServiceSpecificTypes.data_slice_transmit

@[py] theorem member_DataTransmitProtocol_ServiceSpecificTypes_dtp_answer : member library "Hytera.DataTransmitProtocol.ServiceSpecificTypes" "dtp_answer" = pure (.pv (.enum "ServiceSpecificTypes" 17)) := member_of enum_DataTransmitProtocol_ServiceSpecificTypes rfl

@[py] theorem same_DataTransmitProtocol_ServiceSpecificTypes_dtp_answer (on : EnumVal Dmr.Hytera.DataTransmitProtocol.ServiceSpecificTypes) :
    same (.pv (EnumVal.toPy "ServiceSpecificTypes" on)) (.pv (.enum "ServiceSpecificTypes" 17)) = decide (on = .known .dtp_answer) :=
  same_known _ _ Dmr.Hytera.DataTransmitProtocol.ServiceSpecificTypes.dtp_answer

@[py] theorem member_DataTransmitProtocol_ServiceSpecificTypes_dtp_request : member library "Hytera.DataTransmitProtocol.ServiceSpecificTypes" "dtp_request" = pure (.pv (.enum "ServiceSpecificTypes" 1)) := member_of enum_DataTransmitProtocol_ServiceSpecificTypes rfl

@[py] theorem same_DataTransmitProtocol_ServiceSpecificTypes_dtp_request (on : EnumVal Dmr.Hytera.DataTransmitProtocol.ServiceSpecificTypes) :
    same (.pv (EnumVal.toPy "ServiceSpecificTypes" on)) (.pv (.enum "ServiceSpecificTypes" 1)) = decide (on = .known .dtp_request) :=
  same_known _ _ Dmr.Hytera.DataTransmitProtocol.ServiceSpecificTypes.dtp_request

@[py] theorem member_DataTransmitProtocol_ServiceSpecificTypes_last_data_slice : member library "Hytera.DataTransmitProtocol.ServiceSpecificTypes" "last_data_slice" = pure (.pv (.enum "ServiceSpecificTypes" 3)) := member_of enum_DataTransmitProtocol_ServiceSpecificTypes rfl

@[py] theorem same_DataTransmitProtocol_ServiceSpecificTypes_last_data_slice (on : EnumVal Dmr.Hytera.DataTransmitProtocol.ServiceSpecificTypes) :
    same (.pv (EnumVal.toPy "ServiceSpecificTypes" on)) (.pv (.enum "ServiceSpecificTypes" 3)) = decide (on = .known .last_data_slice) :=
  same_known _ _ Dmr.Hytera.DataTransmitProtocol.ServiceSpecificTypes.last_data_slice

@[py] theorem member_DataTransmitProtocol_ServiceSpecificTypes_last_data_slice_answer : member library "Hytera.DataTransmitProtocol.ServiceSpecificTypes" "last_data_slice_answer" = pure (.pv (.enum "ServiceSpecificTypes" 19)) := member_of enum_DataTransmitProtocol_ServiceSpecificTypes rfl

@[py] theorem same_DataTransmitProtocol_ServiceSpecificTypes_last_data_slice_answer (on : EnumVal Dmr.Hytera.DataTransmitProtocol.ServiceSpecificTypes) :
    same (.pv (EnumVal.toPy "ServiceSpecificTypes" on)) (.pv (.enum "ServiceSpecificTypes" 19)) = decide (on = .known .last_data_slice_answer) :=
  same_known _ _ Dmr.Hytera.DataTransmitProtocol.ServiceSpecificTypes.last_data_slice_answer

theorem enum_DataTransmitProtocol_Results : library.enums.find? (fun e => e.qualified == "Hytera.DataTransmitProtocol.Results") = some Source.Hytera.DataTransmitProtocol.Results := enum_at 1 _ DataTransmitProtocol.file 2 Source.Hytera.DataTransmitProtocol.Results rfl

@[py] theorem resolve_DataTransmitProtocol_Results (v : Nat) : resolve library "Hytera.DataTransmitProtocol.Results" (.pv (.int (v : Int))) =
    pure (.pv (EnumVal.toPy "Results" (resolveEnum Dmr.Hytera.DataTransmitProtocol.Results v))) := run_resolve Source.Hytera.DataTransmitProtocol.Results enum_DataTransmitProtocol_Results (by decide) v

theorem DataTransmitProtocol_LastDataSlice_class : library.class "Hytera.DataTransmitProtocol.LastDataSlice" = some Source.Hytera.DataTransmitProtocol.LastDataSlice := class_at 1 _ DataTransmitProtocol.file 0 Source.Hytera.DataTransmitProtocol.LastDataSlice rfl

/-- okdmr/kaitai/hytera/data_transmit_protocol.py:66-77 against `Dmr.Hytera.DataTransmitProtocol.LastDataSlice`. -/
@[py] theorem DataTransmitProtocol_LastDataSlice_builds (n : Nat) (H : List Obj) (S : List Stream) (k : Nat) (hk : k < S.length) (s : Stream)
    (parent root : Val) : ((calls library (n + 5)).construct "Hytera.DataTransmitProtocol.LastDataSlice" [.io k, parent, root]).run ⟨H, S.set k s⟩ =
      after Dmr.Hytera.DataTransmitProtocol.LastDataSlice.read s (fun e s' => .raise e ⟨H, S.set k s'⟩)
        (built Dmr.Hytera.DataTransmitProtocol.LastDataSlice.toPy k parent root H S) := by
  rw [construct_eq library _ "Hytera.DataTransmitProtocol.LastDataSlice" _ _ DataTransmitProtocol_LastDataSlice_class rfl rfl]
  py_run [onStream_set _ _ _ _ hk, hk, Dmr.Hytera.DataTransmitProtocol.LastDataSlice.read, Dmr.Hytera.DataTransmitProtocol.LastDataSlice.toPy]

@[py] theorem DataTransmitProtocol_LastDataSlice_place (io parent root : Val) (b : Nat) (x : Dmr.Hytera.DataTransmitProtocol.LastDataSlice) :
    place io parent root b x.toPy = (.obj b, placeObj io parent root b x.toPy) :=
  place_part _ _ _ _ _ _ (by decide)

theorem DataTransmitProtocol_DtpRequest_class : library.class "Hytera.DataTransmitProtocol.DtpRequest" = some Source.Hytera.DataTransmitProtocol.DtpRequest := class_at 1 _ DataTransmitProtocol.file 1 Source.Hytera.DataTransmitProtocol.DtpRequest rfl

/-- okdmr/kaitai/hytera/data_transmit_protocol.py:79-92 against `Dmr.Hytera.DataTransmitProtocol.DtpRequest`: it looks up the `message_length` of its `_parent`. -/
theorem DataTransmitProtocol_DtpRequest_builds_at (n : Nat) (H : List Obj) (S : List Stream) (k : Nat) (hk : k < S.length) (s : Stream)
    (p : Nat) (o : Obj) (L : Nat) (hp : H[p]? = some o) (hL : o.attrs.lookup "message_length" = some (.pv (.int (L : Int)))) (root : Val) :
    ((calls library (n + 5)).construct "Hytera.DataTransmitProtocol.DtpRequest" [.io k, .obj p, root]).run ⟨H, S.set k s⟩ =
      after (Dmr.Hytera.DataTransmitProtocol.DtpRequest.read L) s (fun e s' => .raise e ⟨H, S.set k s'⟩)
        (built Dmr.Hytera.DataTransmitProtocol.DtpRequest.toPy k (.obj p) root H S) := by
  rw [construct_eq library _ "Hytera.DataTransmitProtocol.DtpRequest" _ _ DataTransmitProtocol_DtpRequest_class rfl rfl]
  py_run [onStream_set _ _ _ _ hk, hk, fetch_old hp, hL, Dmr.Hytera.DataTransmitProtocol.DtpRequest.read, Dmr.Hytera.DataTransmitProtocol.DtpRequest.toPy]

@[py] theorem DataTransmitProtocol_DtpRequest_builds (n : Nat) (H T : List Obj) (S : List Stream) (k : Nat) (hk : k < S.length) (s : Stream)
    (a0 a1 a2 a3 a4 : Val) (L : Nat) (root : Val) :
    ((calls library (n + 5)).construct "Hytera.DataTransmitProtocol.DtpRequest" [.io k, .obj H.length, root]).run
        ⟨H ++ ⟨"Hytera.DataTransmitProtocol", [("_io", a0), ("_parent", a1), ("_root", a2), ("service_type", a3), ("service_specific_type", a4), ("message_length", .pv (.int (L : Int)))]⟩ :: T, S.set k s⟩ =
      after (Dmr.Hytera.DataTransmitProtocol.DtpRequest.read L) s
        (fun e s' => .raise e ⟨H ++ ⟨"Hytera.DataTransmitProtocol", [("_io", a0), ("_parent", a1), ("_root", a2), ("service_type", a3), ("service_specific_type", a4), ("message_length", .pv (.int (L : Int)))]⟩ :: T, S.set k s'⟩)
        (built Dmr.Hytera.DataTransmitProtocol.DtpRequest.toPy k (.obj H.length) root (H ++ ⟨"Hytera.DataTransmitProtocol", [("_io", a0), ("_parent", a1), ("_root", a2), ("service_type", a3), ("service_specific_type", a4), ("message_length", .pv (.int (L : Int)))]⟩ :: T) S) := by
  refine DataTransmitProtocol_DtpRequest_builds_at n _ S k hk s _ ⟨"Hytera.DataTransmitProtocol", [("_io", a0), ("_parent", a1), ("_root", a2), ("service_type", a3), ("service_specific_type", a4), ("message_length", .pv (.int (L : Int)))]⟩ L (by simp) ?_ root
  py_run []

@[py] theorem DataTransmitProtocol_DtpRequest_place (io parent root : Val) (b : Nat) (x : Dmr.Hytera.DataTransmitProtocol.DtpRequest) :
    place io parent root b x.toPy = (.obj b, placeObj io parent root b x.toPy) :=
  place_part _ _ _ _ _ _ (by decide)

theorem DataTransmitProtocol_DataSliceAnswer_class : library.class "Hytera.DataTransmitProtocol.DataSliceAnswer" = some Source.Hytera.DataTransmitProtocol.DataSliceAnswer := class_at 1 _ DataTransmitProtocol.file 2 Source.Hytera.DataTransmitProtocol.DataSliceAnswer rfl

/-- okdmr/kaitai/hytera/data_transmit_protocol.py:94-107 against `Dmr.Hytera.DataTransmitProtocol.DataSliceAnswer`. -/
@[py] theorem DataTransmitProtocol_DataSliceAnswer_builds (n : Nat) (H : List Obj) (S : List Stream) (k : Nat) (hk : k < S.length) (s : Stream)
    (parent root : Val) : ((calls library (n + 5)).construct "Hytera.DataTransmitProtocol.DataSliceAnswer" [.io k, parent, root]).run ⟨H, S.set k s⟩ =
      after Dmr.Hytera.DataTransmitProtocol.DataSliceAnswer.read s (fun e s' => .raise e ⟨H, S.set k s'⟩)
        (built Dmr.Hytera.DataTransmitProtocol.DataSliceAnswer.toPy k parent root H S) := by
  rw [construct_eq library _ "Hytera.DataTransmitProtocol.DataSliceAnswer" _ _ DataTransmitProtocol_DataSliceAnswer_class rfl rfl]
  py_run [onStream_set _ _ _ _ hk, hk, Dmr.Hytera.DataTransmitProtocol.DataSliceAnswer.read, Dmr.Hytera.DataTransmitProtocol.DataSliceAnswer.toPy]

@[py] theorem DataTransmitProtocol_DataSliceAnswer_place (io parent root : Val) (b : Nat) (x : Dmr.Hytera.DataTransmitProtocol.DataSliceAnswer) :
    place io parent root b x.toPy = (.obj b, placeObj io parent root b x.toPy) :=
  place_part _ _ _ _ _ _ (by decide)

theorem DataTransmitProtocol_DataSliceTransmit_class : library.class "Hytera.DataTransmitProtocol.DataSliceTransmit" = some Source.Hytera.DataTransmitProtocol.DataSliceTransmit := class_at 1 _ DataTransmitProtocol.file 3 Source.Hytera.DataTransmitProtocol.DataSliceTransmit rfl

/-- okdmr/kaitai/hytera/data_transmit_protocol.py:109-120 against `Dmr.Hytera.DataTransmitProtocol.DataSliceTransmit`: it looks up the `message_length` of its `_parent`. -/
theorem DataTransmitProtocol_DataSliceTransmit_builds_at (n : Nat) (H : List Obj) (S : List Stream) (k : Nat) (hk : k < S.length) (s : Stream)
    (p : Nat) (o : Obj) (L : Nat) (hp : H[p]? = some o) (hL : o.attrs.lookup "message_length" = some (.pv (.int (L : Int)))) (root : Val) :
    ((calls library (n + 5)).construct "Hytera.DataTransmitProtocol.DataSliceTransmit" [.io k, .obj p, root]).run ⟨H, S.set k s⟩ =
      after (Dmr.Hytera.DataTransmitProtocol.DataSliceTransmit.read L) s (fun e s' => .raise e ⟨H, S.set k s'⟩)
        (built Dmr.Hytera.DataTransmitProtocol.DataSliceTransmit.toPy k (.obj p) root H S) := by
  rw [construct_eq library _ "Hytera.DataTransmitProtocol.DataSliceTransmit" _ _ DataTransmitProtocol_DataSliceTransmit_class rfl rfl]
  py_run [onStream_set _ _ _ _ hk, hk, fetch_old hp, hL, Dmr.Hytera.DataTransmitProtocol.DataSliceTransmit.read, Dmr.Hytera.DataTransmitProtocol.DataSliceTransmit.toPy]

@[py] theorem DataTransmitProtocol_DataSliceTransmit_builds (n : Nat) (H T : List Obj) (S : List Stream) (k : Nat) (hk : k < S.length) (s : Stream)
    (a0 a1 a2 a3 a4 : Val) (L : Nat) (root : Val) :
    ((calls library (n + 5)).construct "Hytera.DataTransmitProtocol.DataSliceTransmit" [.io k, .obj H.length, root]).run
        ⟨H ++ ⟨"Hytera.DataTransmitProtocol", [("_io", a0), ("_parent", a1), ("_root", a2), ("service_type", a3), ("service_specific_type", a4), ("message_length", .pv (.int (L : Int)))]⟩ :: T, S.set k s⟩ =
      after (Dmr.Hytera.DataTransmitProtocol.DataSliceTransmit.read L) s
        (fun e s' => .raise e ⟨H ++ ⟨"Hytera.DataTransmitProtocol", [("_io", a0), ("_parent", a1), ("_root", a2), ("service_type", a3), ("service_specific_type", a4), ("message_length", .pv (.int (L : Int)))]⟩ :: T, S.set k s'⟩)
        (built Dmr.Hytera.DataTransmitProtocol.DataSliceTransmit.toPy k (.obj H.length) root (H ++ ⟨"Hytera.DataTransmitProtocol", [("_io", a0), ("_parent", a1), ("_root", a2), ("service_type", a3), ("service_specific_type", a4), ("message_length", .pv (.int (L : Int)))]⟩ :: T) S) := by
  refine DataTransmitProtocol_DataSliceTransmit_builds_at n _ S k hk s _ ⟨"Hytera.DataTransmitProtocol", [("_io", a0), ("_parent", a1), ("_root", a2), ("service_type", a3), ("service_specific_type", a4), ("message_length", .pv (.int (L : Int)))]⟩ L (by simp) ?_ root
  py_run []

@[py] theorem DataTransmitProtocol_DataSliceTransmit_place (io parent root : Val) (b : Nat) (x : Dmr.Hytera.DataTransmitProtocol.DataSliceTransmit) :
    place io parent root b x.toPy = (.obj b, placeObj io parent root b x.toPy) :=
  place_part _ _ _ _ _ _ (by decide)

theorem DataTransmitProtocol_LastDataSliceAnswer_class : library.class "Hytera.DataTransmitProtocol.LastDataSliceAnswer" = some Source.Hytera.DataTransmitProtocol.LastDataSliceAnswer := class_at 1 _ DataTransmitProtocol.file 4 Source.Hytera.DataTransmitProtocol.LastDataSliceAnswer rfl

/-- okdmr/kaitai/hytera/data_transmit_protocol.py:122-134 against `Dmr.Hytera.DataTransmitProtocol.LastDataSliceAnswer`. -/
@[py] theorem DataTransmitProtocol_LastDataSliceAnswer_builds (n : Nat) (H : List Obj) (S : List Stream) (k : Nat) (hk : k < S.length) (s : Stream)
    (parent root : Val) : ((calls library (n + 5)).construct "Hytera.DataTransmitProtocol.LastDataSliceAnswer" [.io k, parent, root]).run ⟨H, S.set k s⟩ =
      after Dmr.Hytera.DataTransmitProtocol.LastDataSliceAnswer.read s (fun e s' => .raise e ⟨H, S.set k s'⟩)
        (built Dmr.Hytera.DataTransmitProtocol.LastDataSliceAnswer.toPy k parent root H S) := by
  rw [construct_eq library _ "Hytera.DataTransmitProtocol.LastDataSliceAnswer" _ _ DataTransmitProtocol_LastDataSliceAnswer_class rfl rfl]
  py_run [onStream_set _ _ _ _ hk, hk, Dmr.Hytera.DataTransmitProtocol.LastDataSliceAnswer.read, Dmr.Hytera.DataTransmitProtocol.LastDataSliceAnswer.toPy]

@[py] theorem DataTransmitProtocol_LastDataSliceAnswer_place (io parent root : Val) (b : Nat) (x : Dmr.Hytera.DataTransmitProtocol.LastDataSliceAnswer) :
    place io parent root b x.toPy = (.obj b, placeObj io parent root b x.toPy) :=
  place_part _ _ _ _ _ _ (by decide)

theorem DataTransmitProtocol_DtpAnswer_class : library.class "Hytera.DataTransmitProtocol.DtpAnswer" = some Source.Hytera.DataTransmitProtocol.DtpAnswer := class_at 1 _ DataTransmitProtocol.file 5 Source.Hytera.DataTransmitProtocol.DtpAnswer rfl

/-- okdmr/kaitai/hytera/data_transmit_protocol.py:136-148 against `Dmr.Hytera.DataTransmitProtocol.DtpAnswer`. -/
@[py] theorem DataTransmitProtocol_DtpAnswer_builds (n : Nat) (H : List Obj) (S : List Stream) (k : Nat) (hk : k < S.length) (s : Stream)
    (parent root : Val) : ((calls library (n + 5)).construct "Hytera.DataTransmitProtocol.DtpAnswer" [.io k, parent, root]).run ⟨H, S.set k s⟩ =
      after Dmr.Hytera.DataTransmitProtocol.DtpAnswer.read s (fun e s' => .raise e ⟨H, S.set k s'⟩)
        (built Dmr.Hytera.DataTransmitProtocol.DtpAnswer.toPy k parent root H S) := by
  rw [construct_eq library _ "Hytera.DataTransmitProtocol.DtpAnswer" _ _ DataTransmitProtocol_DtpAnswer_class rfl rfl]
  py_run [onStream_set _ _ _ _ hk, hk, Dmr.Hytera.DataTransmitProtocol.DtpAnswer.read, Dmr.Hytera.DataTransmitProtocol.DtpAnswer.toPy]

@[py] theorem DataTransmitProtocol_DtpAnswer_place (io parent root : Val) (b : Nat) (x : Dmr.Hytera.DataTransmitProtocol.DtpAnswer) :
    place io parent root b x.toPy = (.obj b, placeObj io parent root b x.toPy) :=
  place_part _ _ _ _ _ _ (by decide)

theorem DataTransmitProtocol_class : library.class "Hytera.DataTransmitProtocol" = some Source.Hytera.DataTransmitProtocol := class_at 1 _ DataTransmitProtocol.file 6 Source.Hytera.DataTransmitProtocol rfl

/-- okdmr/kaitai/hytera/data_transmit_protocol.py:17-148 against `Dmr.Hytera.DataTransmitProtocol`. -/
@[py] theorem DataTransmitProtocol_builds (n : Nat) (H : List Obj) (S : List Stream) (k : Nat) (hk : k < S.length) (s : Stream)
    (parent root : Val) : ((calls library (n + 7)).construct "Hytera.DataTransmitProtocol" [.io k, parent, root]).run ⟨H, S.set k s⟩ =
      after Dmr.Hytera.DataTransmitProtocol.read s (fun e s' => .raise e ⟨H, S.set k s'⟩)
        (built Dmr.Hytera.DataTransmitProtocol.toPy k parent root H S) := by
  rw [construct_eq library _ "Hytera.DataTransmitProtocol" _ _ DataTransmitProtocol_class rfl rfl]
  py_run [onStream_set _ _ _ _ hk, hk, Dmr.Hytera.DataTransmitProtocol.read, Dmr.Hytera.DataTransmitProtocol.toPy, Dmr.Hytera.DataTransmitProtocol.readData, Dmr.Hytera.DataTransmitProtocol.DataUnion.toPy]

@[py] theorem DataTransmitProtocol_short (n k : Nat) : (calls library (n + 7)).construct "Hytera.DataTransmitProtocol" [.io k] =
    (calls library (n + 7)).construct "Hytera.DataTransmitProtocol" [.io k, .pv .none, .pv .none] := construct_short _ _ _ _ DataTransmitProtocol_class rfl _

@[py] theorem DataTransmitProtocol_place (io parent root : Val) (b : Nat) (x : Dmr.Hytera.DataTransmitProtocol) :
    place io parent root b x.toPy = (.obj b, placeObj io (.pv .none) (.obj b) b x.toPy) :=
  place_file _ _ _ _ _ _ (by decide)

end Dmr.Py.ConformHytera
