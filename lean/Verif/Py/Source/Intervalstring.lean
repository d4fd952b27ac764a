import Verif.Py.Syntax
/-
Generated by tools/mkpyast.py: okdmr/kaitai/hytera/intervalstring.py as data.
-/

set_option autoImplicit false

namespace Dmr.Py.Source.Hytera

/-- okdmr/kaitai/hytera/intervalstring.py:14-24 -/
def Intervalstring : ClassDef where
  name := "Hytera.Intervalstring"
  methods := [("__init__", ⟨["self", "_io", "_parent", "_root"],
      [.setattr (.name "self") "_io" (.name "_io"),
       .setattr (.name "self") "_parent" (.name "_parent"),
       .setattr (.name "self") "_root" (.ifExp (.name "_root") (.name "_root") (.name "self")),
       .expr (.call (.attr (.name "self") "_read") [])]⟩),
    ("_read", ⟨["self"],
      [.setattr (.name "self") "interval" (.call (.attr (.call (.attr (.attr (.name "self") "_io") "read_bytes") [.int 8]) "decode") [.str "UTF-8"])]⟩)]
  properties := []

/-- okdmr/kaitai/hytera/intervalstring.py -/
def Intervalstring.file : File where
  classes := [Intervalstring]
  enums := []

end Dmr.Py.Source.Hytera
