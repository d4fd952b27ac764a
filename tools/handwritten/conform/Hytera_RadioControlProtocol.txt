/-- okdmr/kaitai/hytera/radio_control_protocol.ksy against `Dmr.Hytera.RadioControlProtocol`. -/
@[ksy ↓] theorem RadioControlProtocol_conforms (n : Nat) (sc : Scope) :
    parse (n + 3) sc Hytera.RadioControlProtocol =
      (fun x => view (Dmr.Hytera.RadioControlProtocol.toPy x)) <$> Dmr.Hytera.RadioControlProtocol.read := by
  rw [parse_succ]
  ksy_simp [Dmr.Hytera.RadioControlProtocol.read, Dmr.Hytera.RadioControlProtocol.toPy]
  ksy_same
  rename EnumVal Dmr.Hytera.RadioControlProtocol.ServiceTypes => on
  rename Nat => len
  rcases on with e | v
  · cases e <;> ksy_simp [Dmr.Hytera.RadioControlProtocol.readData, Dmr.Hytera.RadioControlProtocol.DataUnion.toPy,
      RadioControlProtocol_GenericData_conforms _ _ len, RadioControlProtocol_RadioIdentificationReply_conforms _ _ len,
      EnumVal.known.injEq, reduceCtorEq, decide_false, decide_true, decide_eq_true_eq]
  · ksy_simp [Dmr.Hytera.RadioControlProtocol.readData, Dmr.Hytera.RadioControlProtocol.DataUnion.toPy,
      RadioControlProtocol_GenericData_conforms _ _ len,
      EnumVal.known.injEq, reduceCtorEq, decide_false, decide_true, decide_eq_true_eq]
