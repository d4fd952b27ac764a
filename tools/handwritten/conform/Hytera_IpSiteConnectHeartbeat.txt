/-- okdmr/kaitai/hytera/ip_site_connect_heartbeat.ksy against `Dmr.Hytera.IpSiteConnectHeartbeat`. -/
@[ksy ↓] theorem IpSiteConnectHeartbeat_conforms (n : Nat) (sc : Scope) :
    parse (n + 2) sc Hytera.IpSiteConnectHeartbeat =
      (fun x => view (Dmr.Hytera.IpSiteConnectHeartbeat.toPy x)) <$> Dmr.Hytera.IpSiteConnectHeartbeat.read := by
  rw [parse_succ]
  ksy_simp [Dmr.Hytera.IpSiteConnectHeartbeat.read, Dmr.Hytera.IpSiteConnectHeartbeat.toPy, same_cast_1, same_cast_20,
    Dmr.Hytera.IpSiteConnectHeartbeat.readData]
  refine rd_bind_congr fun size => ?_
  split
  · ksy_simp [Dmr.Hytera.IpSiteConnectHeartbeat.DataUnion.toPy]
  · split <;> ksy_simp [Dmr.Hytera.IpSiteConnectHeartbeat.DataUnion.toPy]
