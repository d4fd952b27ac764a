import Verif.Py.Syntax
/-
Generated by tools/mkpyast.py: okdmr/kaitai/hytera/ip_site_connect_heartbeat.py as data.
-/

set_option autoImplicit false

namespace Dmr.Py.Source.Hytera

/-- okdmr/kaitai/hytera/ip_site_connect_heartbeat.py:32-44 -/
def IpSiteConnectHeartbeat.Keepalive : ClassDef where
  name := "Hytera.IpSiteConnectHeartbeat.Keepalive"
  methods := [("__init__", ⟨["self", "_io", "_parent", "_root"],
      [.setattr (.name "self") "_io" (.name "_io"),
       .setattr (.name "self") "_parent" (.name "_parent"),
       .setattr (.name "self") "_root" (.ifExp (.name "_root") (.name "_root") (.name "self")),
       .expr (.call (.attr (.name "self") "_read") [])]⟩),
    ("_read", ⟨["self"],
      [.setattr (.name "self") "nullbyte" (.call (.attr (.attr (.name "self") "_io") "read_bytes") [.int 1]),
       .if_ (.not (.cmp .eq (.attr (.name "self") "nullbyte") (.bytes [0])))
        [.raise_ (.call (.attr (.global "kaitaistruct") "ValidationNotEqualError") [.bytes [0], .attr (.name "self") "nullbyte", .attr (.name "self") "_io", .str "/types/keepalive/seq/0"])]
        []]⟩)]
  properties := []

/-- okdmr/kaitai/hytera/ip_site_connect_heartbeat.py:46-80 -/
def IpSiteConnectHeartbeat.PingPong : ClassDef where
  name := "Hytera.IpSiteConnectHeartbeat.PingPong"
  methods := [("__init__", ⟨["self", "_io", "_parent", "_root"],
      [.setattr (.name "self") "_io" (.name "_io"),
       .setattr (.name "self") "_parent" (.name "_parent"),
       .setattr (.name "self") "_root" (.ifExp (.name "_root") (.name "_root") (.name "self")),
       .expr (.call (.attr (.name "self") "_read") [])]⟩),
    ("_read", ⟨["self"],
      [.setattr (.name "self") "header" (.call (.attr (.attr (.name "self") "_io") "read_bytes") [.int 4]),
       .if_ (.not (.cmp .eq (.attr (.name "self") "header") (.bytes [90, 90, 90, 90])))
        [.raise_ (.call (.attr (.global "kaitaistruct") "ValidationNotEqualError") [.bytes [90, 90, 90, 90], .attr (.name "self") "header", .attr (.name "self") "_io", .str "/types/ping_pong/seq/0"])]
        [],
       .setattr (.name "self") "heartbeat_identitier" (.call (.attr (.attr (.name "self") "_io") "read_bytes") [.int 5]),
       .if_ (.not (.cmp .eq (.attr (.name "self") "heartbeat_identitier") (.bytes [10, 0, 0, 0, 20])))
        [.raise_ (.call (.attr (.global "kaitaistruct") "ValidationNotEqualError") [.bytes [10, 0, 0, 0, 20], .attr (.name "self") "heartbeat_identitier", .attr (.name "self") "_io", .str "/types/ping_pong/seq/1"])]
        [],
       .setattr (.name "self") "nullbytes" (.call (.attr (.attr (.name "self") "_io") "read_bytes") [.int 3]),
       .if_ (.not (.cmp .eq (.attr (.name "self") "nullbytes") (.bytes [0, 0, 0])))
        [.raise_ (.call (.attr (.global "kaitaistruct") "ValidationNotEqualError") [.bytes [0, 0, 0], .attr (.name "self") "nullbytes", .attr (.name "self") "_io", .str "/types/ping_pong/seq/2"])]
        [],
       .setattr (.name "self") "heartbeat_seq" (.call (.attr (.attr (.name "self") "_io") "read_u1") []),
       .setattr (.name "self") "tail" (.call (.attr (.attr (.name "self") "_io") "read_bytes") [.int 7]),
       .if_ (.not (.cmp .eq (.attr (.name "self") "tail") (.bytes [90, 89, 90, 0, 0, 0, 0])))
        [.raise_ (.call (.attr (.global "kaitaistruct") "ValidationNotEqualError") [.bytes [90, 89, 90, 0, 0, 0, 0], .attr (.name "self") "tail", .attr (.name "self") "_io", .str "/types/ping_pong/seq/4"])]
        []]⟩)]
  properties := []

/-- okdmr/kaitai/hytera/ip_site_connect_heartbeat.py:82-90 -/
def IpSiteConnectHeartbeat.Unknown : ClassDef where
  name := "Hytera.IpSiteConnectHeartbeat.Unknown"
  methods := [("__init__", ⟨["self", "_io", "_parent", "_root"],
      [.setattr (.name "self") "_io" (.name "_io"),
       .setattr (.name "self") "_parent" (.name "_parent"),
       .setattr (.name "self") "_root" (.ifExp (.name "_root") (.name "_root") (.name "self")),
       .expr (.call (.attr (.name "self") "_read") [])]⟩),
    ("_read", ⟨["self"],
      [.setattr (.name "self") "data" (.call (.attr (.attr (.name "self") "_io") "read_bytes_full") [])]⟩)]
  properties := []

/-- okdmr/kaitai/hytera/ip_site_connect_heartbeat.py:14-90 -/
def IpSiteConnectHeartbeat : ClassDef where
  name := "Hytera.IpSiteConnectHeartbeat"
  methods := [("__init__", ⟨["self", "_io", "_parent", "_root"],
      [.setattr (.name "self") "_io" (.name "_io"),
       .setattr (.name "self") "_parent" (.name "_parent"),
       .setattr (.name "self") "_root" (.ifExp (.name "_root") (.name "_root") (.name "self")),
       .expr (.call (.attr (.name "self") "_read") [])]⟩),
    ("_read", ⟨["self"],
      [.assign "_on" (.call (.attr (.attr (.name "self") "_io") "size") []),
       .if_ (.cmp .eq (.name "_on") (.int 1))
        [.setattr (.name "self") "data" (.call (.cls "Hytera.IpSiteConnectHeartbeat.Keepalive") [.attr (.name "self") "_io", .name "self", .attr (.name "self") "_root"])]
        [.if_ (.cmp .eq (.name "_on") (.int 20))
          [.setattr (.name "self") "data" (.call (.cls "Hytera.IpSiteConnectHeartbeat.PingPong") [.attr (.name "self") "_io", .name "self", .attr (.name "self") "_root"])]
          [.setattr (.name "self") "data" (.call (.cls "Hytera.IpSiteConnectHeartbeat.Unknown") [.attr (.name "self") "_io", .name "self", .attr (.name "self") "_root"])]]]⟩)]
  properties := []

/-- okdmr/kaitai/hytera/ip_site_connect_heartbeat.py -/
def IpSiteConnectHeartbeat.file : File where
  classes := [IpSiteConnectHeartbeat.Keepalive,
    IpSiteConnectHeartbeat.PingPong,
    IpSiteConnectHeartbeat.Unknown,
    IpSiteConnectHeartbeat]
  enums := []

end Dmr.Py.Source.Hytera
