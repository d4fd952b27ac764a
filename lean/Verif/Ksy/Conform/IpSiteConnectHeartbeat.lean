import Verif.Ksy.Conform.Base
/-
Generated by tools/mkconform.py: the schema of `IpSiteConnectHeartbeat` against the model of the Python classes.
-/

set_option linter.unusedSimpArgs false
set_option maxHeartbeats 1000000

namespace Dmr.Ksy.Hytera

/-- okdmr/kaitai/hytera/ip_site_connect_heartbeat.ksy:8-10 against `Dmr.Hytera.IpSiteConnectHeartbeat.Keepalive`. -/
@[ksy ↓] theorem IpSiteConnectHeartbeat_Keepalive_conforms (n : Nat) (sc : Scope) :
    parse (n + 1) sc Hytera.IpSiteConnectHeartbeat.Keepalive = (fun x => view (Dmr.Hytera.IpSiteConnectHeartbeat.Keepalive.toPy x)) <$> Dmr.Hytera.IpSiteConnectHeartbeat.Keepalive.read := by
  rw [parse_succ]
  ksy_simp [Dmr.Hytera.IpSiteConnectHeartbeat.Keepalive.read, Dmr.Hytera.IpSiteConnectHeartbeat.Keepalive.toPy]

/-- okdmr/kaitai/hytera/ip_site_connect_heartbeat.ksy:12-24 against `Dmr.Hytera.IpSiteConnectHeartbeat.PingPong`. -/
@[ksy ↓] theorem IpSiteConnectHeartbeat_PingPong_conforms (n : Nat) (sc : Scope) :
    parse (n + 1) sc Hytera.IpSiteConnectHeartbeat.PingPong = (fun x => view (Dmr.Hytera.IpSiteConnectHeartbeat.PingPong.toPy x)) <$> Dmr.Hytera.IpSiteConnectHeartbeat.PingPong.read := by
  rw [parse_succ]
  ksy_simp [Dmr.Hytera.IpSiteConnectHeartbeat.PingPong.read, Dmr.Hytera.IpSiteConnectHeartbeat.PingPong.toPy]

/-- okdmr/kaitai/hytera/ip_site_connect_heartbeat.ksy:26-28 against `Dmr.Hytera.IpSiteConnectHeartbeat.Unknown`. -/
@[ksy ↓] theorem IpSiteConnectHeartbeat_Unknown_conforms (n : Nat) (sc : Scope) :
    parse (n + 1) sc Hytera.IpSiteConnectHeartbeat.Unknown = (fun x => view (Dmr.Hytera.IpSiteConnectHeartbeat.Unknown.toPy x)) <$> Dmr.Hytera.IpSiteConnectHeartbeat.Unknown.read := by
  rw [parse_succ]
  ksy_simp [Dmr.Hytera.IpSiteConnectHeartbeat.Unknown.read, Dmr.Hytera.IpSiteConnectHeartbeat.Unknown.toPy]

/-- okdmr/kaitai/hytera/ip_site_connect_heartbeat.ksy against `Dmr.Hytera.IpSiteConnectHeartbeat`. -/
@[ksy ↓] theorem IpSiteConnectHeartbeat_conforms (n : Nat) (sc : Scope) :
    parse (n + 2) sc Hytera.IpSiteConnectHeartbeat =
      (fun x => view (Dmr.Hytera.IpSiteConnectHeartbeat.toPy x)) <$> Dmr.Hytera.IpSiteConnectHeartbeat.read := by
  rw [parse_succ]
  ksy_simp [Dmr.Hytera.IpSiteConnectHeartbeat.read, Dmr.Hytera.IpSiteConnectHeartbeat.toPy, same_cast_1, same_cast_20,
    Dmr.Hytera.IpSiteConnectHeartbeat.readData]
  refine rd_bind_congr fun size => ?_
  split
  · ksy_simp [Dmr.Hytera.IpSiteConnectHeartbeat.DataUnion.toPy]
  · split <;> ksy_simp [Dmr.Hytera.IpSiteConnectHeartbeat.DataUnion.toPy]

end Dmr.Ksy.Hytera
