import Verif.Runtime
/-
Model of okdmr/kaitai/hytera/ip_site_connect_heartbeat.py (generated by tools/py2lean.py from the Python AST;
definitions marked "hand-written" are not).
-/

namespace Dmr.Hytera

/-- okdmr/kaitai/hytera/ip_site_connect_heartbeat.py:39-44 attributes of `IpSiteConnectHeartbeat.Keepalive`. -/
structure IpSiteConnectHeartbeat.Keepalive where
  nullbyte : Bytes
  deriving DecidableEq

/-- okdmr/kaitai/hytera/ip_site_connect_heartbeat.py:39-44 `IpSiteConnectHeartbeat.Keepalive._read`. -/
def IpSiteConnectHeartbeat.Keepalive.read : Rd IpSiteConnectHeartbeat.Keepalive := do
  let nullbyte ← readBytes 1
  validateEq nullbyte [0x00] "/types/keepalive/seq/0"
  return { nullbyte }

/-- okdmr/kaitai/hytera/ip_site_connect_heartbeat.py:53-80 attributes of `IpSiteConnectHeartbeat.PingPong`. -/
structure IpSiteConnectHeartbeat.PingPong where
  header : Bytes
  heartbeat_identitier : Bytes
  nullbytes : Bytes
  heartbeat_seq : Nat
  tail : Bytes
  deriving DecidableEq

/-- okdmr/kaitai/hytera/ip_site_connect_heartbeat.py:53-80 `IpSiteConnectHeartbeat.PingPong._read`. -/
def IpSiteConnectHeartbeat.PingPong.read : Rd IpSiteConnectHeartbeat.PingPong := do
  let header ← readBytes 4
  validateEq header [0x5a, 0x5a, 0x5a, 0x5a] "/types/ping_pong/seq/0"
  let heartbeat_identitier ← readBytes 5
  validateEq heartbeat_identitier [0x0a, 0x00, 0x00, 0x00, 0x14] "/types/ping_pong/seq/1"
  let nullbytes ← readBytes 3
  validateEq nullbytes [0x00, 0x00, 0x00] "/types/ping_pong/seq/2"
  let heartbeat_seq ← readU1
  let tail ← readBytes 7
  validateEq tail [0x5a, 0x59, 0x5a, 0x00, 0x00, 0x00, 0x00] "/types/ping_pong/seq/4"
  return { header, heartbeat_identitier, nullbytes, heartbeat_seq, tail }

/-- okdmr/kaitai/hytera/ip_site_connect_heartbeat.py:89-90 attributes of `IpSiteConnectHeartbeat.Unknown`. -/
structure IpSiteConnectHeartbeat.Unknown where
  data : Bytes
  deriving DecidableEq

/-- okdmr/kaitai/hytera/ip_site_connect_heartbeat.py:89-90 `IpSiteConnectHeartbeat.Unknown._read`. -/
def IpSiteConnectHeartbeat.Unknown.read : Rd IpSiteConnectHeartbeat.Unknown := do
  let data ← readBytesFull
  return { data }

/-- okdmr/kaitai/hytera/ip_site_connect_heartbeat.py:26-30 possible objects in `IpSiteConnectHeartbeat.data`. -/
inductive IpSiteConnectHeartbeat.DataUnion where
  | keepalive (x : IpSiteConnectHeartbeat.Keepalive)
  | pingPong (x : IpSiteConnectHeartbeat.PingPong)
  | unknown (x : IpSiteConnectHeartbeat.Unknown)
  deriving DecidableEq

/-- okdmr/kaitai/hytera/ip_site_connect_heartbeat.py:25-30 the `if _on == ...` chain of `IpSiteConnectHeartbeat._read`. -/
def IpSiteConnectHeartbeat.readData (on : Nat) : Rd (IpSiteConnectHeartbeat.DataUnion) :=
  if on = 1 then do let x ← IpSiteConnectHeartbeat.Keepalive.read; return .keepalive x
  else if on = 20 then do let x ← IpSiteConnectHeartbeat.PingPong.read; return .pingPong x
  else do let x ← IpSiteConnectHeartbeat.Unknown.read; return .unknown x

/-- okdmr/kaitai/hytera/ip_site_connect_heartbeat.py:23-30 attributes of `IpSiteConnectHeartbeat`. -/
structure IpSiteConnectHeartbeat where
  data : IpSiteConnectHeartbeat.DataUnion
  deriving DecidableEq

/-- okdmr/kaitai/hytera/ip_site_connect_heartbeat.py:23-30 `IpSiteConnectHeartbeat._read`. -/
def IpSiteConnectHeartbeat.read : Rd IpSiteConnectHeartbeat := do
  let io_size1 ← sizeIo
  let data ← IpSiteConnectHeartbeat.readData io_size1
  return { data }

end Dmr.Hytera
