/-- okdmr/kaitai/hytera/telemetry_protocol.ksy instance `specific_service` against the property of
`Dmr.Hytera.TelemetryProtocol` on its first access. -/
@[ksy ↓] theorem TelemetryProtocol_specific_service (n : Nat) (attrs : List (String × PyVal)) (root : Frame) :
    inst (n + 1) ⟨Hytera.TelemetryProtocol, attrs⟩ root "specific_service" =
      EnumVal.toPy "ServiceSpecificTypes" <$> Dmr.Hytera.TelemetryProtocol.computeSpecificService := by
  rw [inst_at _ _ _ _ _ _ rfl]
  ksy_simp [Dmr.Hytera.TelemetryProtocol.computeSpecificService]

/-- okdmr/kaitai/hytera/telemetry_protocol.ksy against `Dmr.Hytera.TelemetryProtocol`. -/
@[ksy ↓] theorem TelemetryProtocol_conforms (n : Nat) (sc : Scope) :
    parse (n + 3) sc Hytera.TelemetryProtocol =
      (fun x => view (Dmr.Hytera.TelemetryProtocol.toPy x)) <$> Dmr.Hytera.TelemetryProtocol.read := by
  rw [parse_succ]
  ksy_simp [Dmr.Hytera.TelemetryProtocol.read, Dmr.Hytera.TelemetryProtocol.toPy]
  ksy_switch Dmr.Hytera.TelemetryProtocol.readData Dmr.Hytera.TelemetryProtocol.DataUnion.toPy Dmr.Hytera.TelemetryProtocol.ServiceSpecificTypes
