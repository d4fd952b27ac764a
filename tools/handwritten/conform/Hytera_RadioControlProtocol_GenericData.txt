/-- okdmr/kaitai/hytera/radio_control_protocol.ksy type `GenericData`, in an object whose `message_length` is `len`, against
`Dmr.Hytera.RadioControlProtocol.GenericData`. -/
theorem RadioControlProtocol_GenericData_conforms (n : Nat) (sc : Scope) (len : Nat)
    (h : sc.self.attrs.lookup "message_length" = some (.int (Int.ofNat len))) :
    parse (n + 1) sc Hytera.RadioControlProtocol.GenericData =
      (fun x => view (Dmr.Hytera.RadioControlProtocol.GenericData.toPy x)) <$> Dmr.Hytera.RadioControlProtocol.GenericData.read len := by
  rw [parse_succ]
  ksy_simp [Dmr.Hytera.RadioControlProtocol.GenericData.read, Dmr.Hytera.RadioControlProtocol.GenericData.toPy, h]
