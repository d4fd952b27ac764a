/-- okdmr/kaitai/hytera/radio_control_protocol.ksy type `RadioIdentificationReply`, in an object whose `message_length` is `len`, against
`Dmr.Hytera.RadioControlProtocol.RadioIdentificationReply`. -/
theorem RadioControlProtocol_RadioIdentificationReply_conforms (n : Nat) (sc : Scope) (len : Nat)
    (h : sc.self.attrs.lookup "message_length" = some (.int (Int.ofNat len))) :
    parse (n + 1) sc Hytera.RadioControlProtocol.RadioIdentificationReply =
      (fun x => view (Dmr.Hytera.RadioControlProtocol.RadioIdentificationReply.toPy x)) <$> Dmr.Hytera.RadioControlProtocol.RadioIdentificationReply.read len := by
  rw [parse_succ]
  ksy_simp [Dmr.Hytera.RadioControlProtocol.RadioIdentificationReply.read, Dmr.Hytera.RadioControlProtocol.RadioIdentificationReply.toPy, h]
