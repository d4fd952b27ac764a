import Verif.Py.Syntax
/-
Generated by tools/mkpyast.py: okdmr/kaitai/hytera/gpsdata.py as data.
-/

set_option autoImplicit false

namespace Dmr.Py.Source.Hytera

/-- okdmr/kaitai/hytera/gpsdata.py:14-38 -/
def Gpsdata : ClassDef where
  name := "Hytera.Gpsdata"
  methods := [("__init__", ⟨["self", "_io", "_parent", "_root"],
      [.setattr (.name "self") "_io" (.name "_io"),
       .setattr (.name "self") "_parent" (.name "_parent"),
       .setattr (.name "self") "_root" (.ifExp (.name "_root") (.name "_root") (.name "self")),
       .expr (.call (.attr (.name "self") "_read") [])]⟩),
    ("_read", ⟨["self"],
      [.setattr (.name "self") "gps_status" (.call (.attr (.attr (.name "self") "_io") "read_bytes") [.int 1]),
       .setattr (.name "self") "gps_time" (.call (.attr (.attr (.name "self") "_io") "read_bytes") [.int 6]),
       .setattr (.name "self") "gps_date" (.call (.attr (.attr (.name "self") "_io") "read_bytes") [.int 6]),
       .setattr (.name "self") "north_south" (.call (.attr (.attr (.name "self") "_io") "read_bytes") [.int 1]),
       .setattr (.name "self") "latitude" (.call (.attr (.attr (.name "self") "_io") "read_bytes") [.int 9]),
       .setattr (.name "self") "east_west" (.call (.attr (.attr (.name "self") "_io") "read_bytes") [.int 1]),
       .setattr (.name "self") "longitude" (.call (.attr (.attr (.name "self") "_io") "read_bytes") [.int 10]),
       .setattr (.name "self") "speed" (.call (.attr (.attr (.name "self") "_io") "read_bytes") [.int 3]),
       .setattr (.name "self") "direction" (.call (.attr (.attr (.name "self") "_io") "read_bytes") [.int 3])]⟩)]
  properties := [("gps_available", ⟨["self"],
      [.if_ (.call (.global "hasattr") [.name "self", .str "_m_gps_available"])
        [.return_ (.attr (.name "self") "_m_gps_available")]
        [],
       .setattr (.name "self") "_m_gps_available" (.cmp .eq (.call (.attr (.attr (.name "self") "gps_status") "decode") [.str "ASCII"]) (.str "A")),
       .return_ (.call (.global "getattr") [.name "self", .str "_m_gps_available", .none])]⟩)]

/-- okdmr/kaitai/hytera/gpsdata.py -/
def Gpsdata.file : File where
  classes := [Gpsdata]
  enums := []

end Dmr.Py.Source.Hytera
