/-- okdmr/kaitai/hytera/data_transmit_protocol.ksy against `Dmr.Hytera.DataTransmitProtocol`. -/
@[ksy ↓] theorem DataTransmitProtocol_conforms (n : Nat) (sc : Scope) :
    parse (n + 3) sc Hytera.DataTransmitProtocol =
      (fun x => view (Dmr.Hytera.DataTransmitProtocol.toPy x)) <$> Dmr.Hytera.DataTransmitProtocol.read := by
  rw [parse_succ]
  ksy_simp [Dmr.Hytera.DataTransmitProtocol.read, Dmr.Hytera.DataTransmitProtocol.toPy]
  ksy_same
  rename EnumVal Dmr.Hytera.DataTransmitProtocol.ServiceSpecificTypes => on
  rename Nat => len
  rcases on with e | v
  · cases e <;> ksy_simp [Dmr.Hytera.DataTransmitProtocol.readData, Dmr.Hytera.DataTransmitProtocol.DataUnion.toPy,
      DataTransmitProtocol_DtpRequest_conforms _ _ len, DataTransmitProtocol_DataSliceTransmit_conforms _ _ len,
      EnumVal.known.injEq, reduceCtorEq, decide_false, decide_true, decide_eq_true_eq]
  · ksy_simp [Dmr.Hytera.DataTransmitProtocol.readData, Dmr.Hytera.DataTransmitProtocol.DataUnion.toPy,
      EnumVal.known.injEq, reduceCtorEq, decide_false, decide_true, decide_eq_true_eq]
