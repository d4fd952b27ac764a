import Verif.Ksy.Conform.Base
import Verif.Ksy.Conform.RadioIp
/-
Generated by tools/mkconform.py: the schema of `DataTransmitProtocol` against the model of the Python classes.
-/

set_option linter.unusedSimpArgs false
set_option maxHeartbeats 1000000

namespace Dmr.Ksy.Hytera

@[ksy] theorem resolve_DataTransmitProtocol_ServiceTypes (v : Nat) : Hytera.DataTransmitProtocol.ServiceTypes.resolve v = EnumVal.toPy "ServiceTypes" (resolveEnum Dmr.Hytera.DataTransmitProtocol.ServiceTypes v) :=
  resolve_eq _ (by decide) v

@[ksy ↓] theorem read_DataTransmitProtocol_ServiceTypes_u1 (ev sub) : readTy ev sub (.primEnum .u1 Hytera.DataTransmitProtocol.ServiceTypes) =
    asEnum Dmr.Hytera.DataTransmitProtocol.ServiceTypes readU1 >>= fun e => pure (some (EnumVal.toPy "ServiceTypes" e)) :=
  enum_prim resolve_DataTransmitProtocol_ServiceTypes .u1 readU1 rfl ev sub

@[ksy] theorem resolve_DataTransmitProtocol_ServiceSpecificTypes (v : Nat) : Hytera.DataTransmitProtocol.ServiceSpecificTypes.resolve v = EnumVal.toPy "ServiceSpecificTypes" (resolveEnum Dmr.Hytera.DataTransmitProtocol.ServiceSpecificTypes v) :=
  resolve_eq _ (by decide) v

@[ksy ↓] theorem read_DataTransmitProtocol_ServiceSpecificTypes_u1 (ev sub) : readTy ev sub (.primEnum .u1 Hytera.DataTransmitProtocol.ServiceSpecificTypes) =
    asEnum Dmr.Hytera.DataTransmitProtocol.ServiceSpecificTypes readU1 >>= fun e => pure (some (EnumVal.toPy "ServiceSpecificTypes" e)) :=
  enum_prim resolve_DataTransmitProtocol_ServiceSpecificTypes .u1 readU1 rfl ev sub

@[ksy] theorem member_DataTransmitProtocol_ServiceSpecificTypes_data_slice_answer : Hytera.DataTransmitProtocol.ServiceSpecificTypes.member "data_slice_answer" = pure (.enum "ServiceSpecificTypes" 18) := rfl

@[ksy] theorem same_DataTransmitProtocol_ServiceSpecificTypes_data_slice_answer (on : EnumVal Dmr.Hytera.DataTransmitProtocol.ServiceSpecificTypes) :
    same (EnumVal.toPy "ServiceSpecificTypes" on) (.enum "ServiceSpecificTypes" 18) = decide (on = .known .data_slice_answer) :=
  same_known _ _ Dmr.Hytera.DataTransmitProtocol.ServiceSpecificTypes.data_slice_answer

@[ksy] theorem member_DataTransmitProtocol_ServiceSpecificTypes_data_slice_transmit : Hytera.DataTransmitProtocol.ServiceSpecificTypes.member "data_slice_transmit" = pure (.enum "ServiceSpecificTypes" 2) := rfl

@[ksy] theorem same_DataTransmitProtocol_ServiceSpecificTypes_data_slice_transmit (on : EnumVal Dmr.Hytera.DataTransmitProtocol.ServiceSpecificTypes) :
    same (EnumVal.toPy "ServiceSpecificTypes" on) (.enum "ServiceSpecificTypes" 2) = decide (on = .known .data_slice_transmit) :=
  same_known _ _ Dmr.Hytera.DataTransmitProtocol.ServiceSpecificTypes.data_slice_transmit

@[ksy] theorem member_DataTransmitProtocol_ServiceSpecificTypes_dtp_answer : Hytera.DataTransmitProtocol.ServiceSpecificTypes.member "dtp_answer" = pure (.enum "ServiceSpecificTypes" 17) := rfl

@[ksy] theorem same_DataTransmitProtocol_ServiceSpecificTypes_dtp_answer (on : EnumVal Dmr.Hytera.DataTransmitProtocol.ServiceSpecificTypes) :
    same (EnumVal.toPy "ServiceSpecificTypes" on) (.enum "ServiceSpecificTypes" 17) = decide (on = .known .dtp_answer) :=
  same_known _ _ Dmr.Hytera.DataTransmitProtocol.ServiceSpecificTypes.dtp_answer

@[ksy] theorem member_DataTransmitProtocol_ServiceSpecificTypes_dtp_request : Hytera.DataTransmitProtocol.ServiceSpecificTypes.member "dtp_request" = pure (.enum "ServiceSpecificTypes" 1) := rfl

@[ksy] theorem same_DataTransmitProtocol_ServiceSpecificTypes_dtp_request (on : EnumVal Dmr.Hytera.DataTransmitProtocol.ServiceSpecificTypes) :
    same (EnumVal.toPy "ServiceSpecificTypes" on) (.enum "ServiceSpecificTypes" 1) = decide (on = .known .dtp_request) :=
  same_known _ _ Dmr.Hytera.DataTransmitProtocol.ServiceSpecificTypes.dtp_request

@[ksy] theorem member_DataTransmitProtocol_ServiceSpecificTypes_last_data_slice : Hytera.DataTransmitProtocol.ServiceSpecificTypes.member "last_data_slice" = pure (.enum "ServiceSpecificTypes" 3) := rfl

@[ksy] theorem same_DataTransmitProtocol_ServiceSpecificTypes_last_data_slice (on : EnumVal Dmr.Hytera.DataTransmitProtocol.ServiceSpecificTypes) :
    same (EnumVal.toPy "ServiceSpecificTypes" on) (.enum "ServiceSpecificTypes" 3) = decide (on = .known .last_data_slice) :=
  same_known _ _ Dmr.Hytera.DataTransmitProtocol.ServiceSpecificTypes.last_data_slice

@[ksy] theorem member_DataTransmitProtocol_ServiceSpecificTypes_last_data_slice_answer : Hytera.DataTransmitProtocol.ServiceSpecificTypes.member "last_data_slice_answer" = pure (.enum "ServiceSpecificTypes" 19) := rfl

@[ksy] theorem same_DataTransmitProtocol_ServiceSpecificTypes_last_data_slice_answer (on : EnumVal Dmr.Hytera.DataTransmitProtocol.ServiceSpecificTypes) :
    same (EnumVal.toPy "ServiceSpecificTypes" on) (.enum "ServiceSpecificTypes" 19) = decide (on = .known .last_data_slice_answer) :=
  same_known _ _ Dmr.Hytera.DataTransmitProtocol.ServiceSpecificTypes.last_data_slice_answer

@[ksy] theorem resolve_DataTransmitProtocol_Results (v : Nat) : Hytera.DataTransmitProtocol.Results.resolve v = EnumVal.toPy "Results" (resolveEnum Dmr.Hytera.DataTransmitProtocol.Results v) :=
  resolve_eq _ (by decide) v

@[ksy ↓] theorem read_DataTransmitProtocol_Results_u1 (ev sub) : readTy ev sub (.primEnum .u1 Hytera.DataTransmitProtocol.Results) =
    asEnum Dmr.Hytera.DataTransmitProtocol.Results readU1 >>= fun e => pure (some (EnumVal.toPy "Results" e)) :=
  enum_prim resolve_DataTransmitProtocol_Results .u1 readU1 rfl ev sub

/-- okdmr/kaitai/hytera/data_transmit_protocol.ksy type `DtpRequest`, in an object whose `message_length` is `len`, against
`Dmr.Hytera.DataTransmitProtocol.DtpRequest`. -/
theorem DataTransmitProtocol_DtpRequest_conforms (n : Nat) (sc : Scope) (len : Nat)
    (h : sc.self.attrs.lookup "message_length" = some (.int (Int.ofNat len))) :
    parse (n + 2) sc Hytera.DataTransmitProtocol.DtpRequest =
      (fun x => view (Dmr.Hytera.DataTransmitProtocol.DtpRequest.toPy x)) <$> Dmr.Hytera.DataTransmitProtocol.DtpRequest.read len := by
  rw [parse_succ]
  ksy_simp [Dmr.Hytera.DataTransmitProtocol.DtpRequest.read, Dmr.Hytera.DataTransmitProtocol.DtpRequest.toPy, h]

/-- okdmr/kaitai/hytera/data_transmit_protocol.ksy:34-41 against `Dmr.Hytera.DataTransmitProtocol.DtpAnswer`. -/
@[ksy ↓] theorem DataTransmitProtocol_DtpAnswer_conforms (n : Nat) (sc : Scope) :
    parse (n + 2) sc Hytera.DataTransmitProtocol.DtpAnswer = (fun x => view (Dmr.Hytera.DataTransmitProtocol.DtpAnswer.toPy x)) <$> Dmr.Hytera.DataTransmitProtocol.DtpAnswer.read := by
  rw [parse_succ]
  ksy_simp [Dmr.Hytera.DataTransmitProtocol.DtpAnswer.read, Dmr.Hytera.DataTransmitProtocol.DtpAnswer.toPy]

/-- okdmr/kaitai/hytera/data_transmit_protocol.ksy type `DataSliceTransmit`, in an object whose `message_length` is `len`, against
`Dmr.Hytera.DataTransmitProtocol.DataSliceTransmit`. -/
theorem DataTransmitProtocol_DataSliceTransmit_conforms (n : Nat) (sc : Scope) (len : Nat)
    (h : sc.self.attrs.lookup "message_length" = some (.int (Int.ofNat len))) :
    parse (n + 2) sc Hytera.DataTransmitProtocol.DataSliceTransmit =
      (fun x => view (Dmr.Hytera.DataTransmitProtocol.DataSliceTransmit.toPy x)) <$> Dmr.Hytera.DataTransmitProtocol.DataSliceTransmit.read len := by
  rw [parse_succ]
  ksy_simp [Dmr.Hytera.DataTransmitProtocol.DataSliceTransmit.read, Dmr.Hytera.DataTransmitProtocol.DataSliceTransmit.toPy, h]

/-- okdmr/kaitai/hytera/data_transmit_protocol.ksy:55-66 against `Dmr.Hytera.DataTransmitProtocol.DataSliceAnswer`. -/
@[ksy ↓] theorem DataTransmitProtocol_DataSliceAnswer_conforms (n : Nat) (sc : Scope) :
    parse (n + 2) sc Hytera.DataTransmitProtocol.DataSliceAnswer = (fun x => view (Dmr.Hytera.DataTransmitProtocol.DataSliceAnswer.toPy x)) <$> Dmr.Hytera.DataTransmitProtocol.DataSliceAnswer.read := by
  rw [parse_succ]
  ksy_simp [Dmr.Hytera.DataTransmitProtocol.DataSliceAnswer.read, Dmr.Hytera.DataTransmitProtocol.DataSliceAnswer.toPy]

/-- okdmr/kaitai/hytera/data_transmit_protocol.ksy:68-75 against `Dmr.Hytera.DataTransmitProtocol.LastDataSlice`. -/
@[ksy ↓] theorem DataTransmitProtocol_LastDataSlice_conforms (n : Nat) (sc : Scope) :
    parse (n + 2) sc Hytera.DataTransmitProtocol.LastDataSlice = (fun x => view (Dmr.Hytera.DataTransmitProtocol.LastDataSlice.toPy x)) <$> Dmr.Hytera.DataTransmitProtocol.LastDataSlice.read := by
  rw [parse_succ]
  ksy_simp [Dmr.Hytera.DataTransmitProtocol.LastDataSlice.read, Dmr.Hytera.DataTransmitProtocol.LastDataSlice.toPy]

/-- okdmr/kaitai/hytera/data_transmit_protocol.ksy:77-86 against `Dmr.Hytera.DataTransmitProtocol.LastDataSliceAnswer`. -/
@[ksy ↓] theorem DataTransmitProtocol_LastDataSliceAnswer_conforms (n : Nat) (sc : Scope) :
    parse (n + 2) sc Hytera.DataTransmitProtocol.LastDataSliceAnswer = (fun x => view (Dmr.Hytera.DataTransmitProtocol.LastDataSliceAnswer.toPy x)) <$> Dmr.Hytera.DataTransmitProtocol.LastDataSliceAnswer.read := by
  rw [parse_succ]
  ksy_simp [Dmr.Hytera.DataTransmitProtocol.LastDataSliceAnswer.read, Dmr.Hytera.DataTransmitProtocol.LastDataSliceAnswer.toPy]

/-- okdmr/kaitai/hytera/data_transmit_protocol.ksy against `Dmr.Hytera.DataTransmitProtocol`. -/
@[ksy ↓] theorem DataTransmitProtocol_conforms (n : Nat) (sc : Scope) :
    parse (n + 3) sc Hytera.DataTransmitProtocol =
      (fun x => view (Dmr.Hytera.DataTransmitProtocol.toPy x)) <$> Dmr.Hytera.DataTransmitProtocol.read := by
  rw [parse_succ]
  ksy_simp [Dmr.Hytera.DataTransmitProtocol.read, Dmr.Hytera.DataTransmitProtocol.toPy]
  ksy_same
  rename EnumVal Dmr.Hytera.DataTransmitProtocol.ServiceSpecificTypes => on
  rename Nat => len
  rcases on with e | v
  · cases e <;> ksy_simp [Dmr.Hytera.DataTransmitProtocol.readData, Dmr.Hytera.DataTransmitProtocol.DataUnion.toPy,
      DataTransmitProtocol_DtpRequest_conforms _ _ len, DataTransmitProtocol_DataSliceTransmit_conforms _ _ len,
      EnumVal.known.injEq, reduceCtorEq, decide_false, decide_true, decide_eq_true_eq]
  · ksy_simp [Dmr.Hytera.DataTransmitProtocol.readData, Dmr.Hytera.DataTransmitProtocol.DataUnion.toPy,
      EnumVal.known.injEq, reduceCtorEq, decide_false, decide_true, decide_eq_true_eq]

end Dmr.Ksy.Hytera
