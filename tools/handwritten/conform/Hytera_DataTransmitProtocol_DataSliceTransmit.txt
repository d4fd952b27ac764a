/-- okdmr/kaitai/hytera/data_transmit_protocol.ksy type `DataSliceTransmit`, in an object whose `message_length` is `len`, against
`Dmr.Hytera.DataTransmitProtocol.DataSliceTransmit`. -/
theorem DataTransmitProtocol_DataSliceTransmit_conforms (n : Nat) (sc : Scope) (len : Nat)
    (h : sc.self.attrs.lookup "message_length" = some (.int (Int.ofNat len))) :
    parse (n + 2) sc Hytera.DataTransmitProtocol.DataSliceTransmit =
      (fun x => view (Dmr.Hytera.DataTransmitProtocol.DataSliceTransmit.toPy x)) <$> Dmr.Hytera.DataTransmitProtocol.DataSliceTransmit.read len := by
  rw [parse_succ]
  ksy_simp [Dmr.Hytera.DataTransmitProtocol.DataSliceTransmit.read, Dmr.Hytera.DataTransmitProtocol.DataSliceTransmit.toPy, h]
