@[ksy] theorem HyteraSimpleTransportReliabilityProtocol_Option_more
    (x : Dmr.Hytera.HyteraSimpleTransportReliabilityProtocol.Option) :
    getAttr (view (Dmr.Hytera.HyteraSimpleTransportReliabilityProtocol.Option.toPy x)) "expect_more_options" =
      pure (.bool x.expect_more_options) := by
  ksy_simp [Dmr.Hytera.HyteraSimpleTransportReliabilityProtocol.Option.toPy, get_attr]

/-- okdmr/kaitai/hytera/hytera_simple_transport_reliability_protocol.ksy against
`Dmr.Hytera.HyteraSimpleTransportReliabilityProtocol`. -/
@[ksy ↓] theorem HyteraSimpleTransportReliabilityProtocol_conforms (n : Nat) (sc : Scope) :
    parse (n + 6) sc Hytera.HyteraSimpleTransportReliabilityProtocol =
      (fun x => view (Dmr.Hytera.HyteraSimpleTransportReliabilityProtocol.toPy x)) <$>
        Dmr.Hytera.HyteraSimpleTransportReliabilityProtocol.read := by
  rw [parse_succ]
  ksy_simp [Dmr.Hytera.HyteraSimpleTransportReliabilityProtocol.read, Dmr.Hytera.HyteraSimpleTransportReliabilityProtocol.toPy]
