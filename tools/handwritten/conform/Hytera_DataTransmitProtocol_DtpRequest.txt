/-- okdmr/kaitai/hytera/data_transmit_protocol.ksy type `DtpRequest`, in an object whose `message_length` is `len`, against
`Dmr.Hytera.DataTransmitProtocol.DtpRequest`. -/
theorem DataTransmitProtocol_DtpRequest_conforms (n : Nat) (sc : Scope) (len : Nat)
    (h : sc.self.attrs.lookup "message_length" = some (.int (Int.ofNat len))) :
    parse (n + 2) sc Hytera.DataTransmitProtocol.DtpRequest =
      (fun x => view (Dmr.Hytera.DataTransmitProtocol.DtpRequest.toPy x)) <$> Dmr.Hytera.DataTransmitProtocol.DtpRequest.read len := by
  rw [parse_succ]
  ksy_simp [Dmr.Hytera.DataTransmitProtocol.DtpRequest.read, Dmr.Hytera.DataTransmitProtocol.DtpRequest.toPy, h]
