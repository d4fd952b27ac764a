import Verif.Py.Syntax
/-
Generated by tools/mkpyast.py: okdmr/kaitai/hytera/datetimestring.py as data.
-/

set_option autoImplicit false

namespace Dmr.Py.Source.Hytera

/-- okdmr/kaitai/hytera/datetimestring.py:14-24 -/
def Datetimestring : ClassDef where
  name := "Hytera.Datetimestring"
  methods := [("__init__", ⟨["self", "_io", "_parent", "_root"],
      [.setattr (.name "self") "_io" (.name "_io"),
       .setattr (.name "self") "_parent" (.name "_parent"),
       .setattr (.name "self") "_root" (.ifExp (.name "_root") (.name "_root") (.name "self")),
       .expr (.call (.attr (.name "self") "_read") [])]⟩),
    ("_read", ⟨["self"],
      [.setattr (.name "self") "datetime" (.call (.attr (.call (.attr (.attr (.name "self") "_io") "read_bytes") [.int 14]) "decode") [.str "UTF-8"])]⟩)]
  properties := []

/-- okdmr/kaitai/hytera/datetimestring.py -/
def Datetimestring.file : File where
  classes := [Datetimestring]
  enums := []

end Dmr.Py.Source.Hytera
