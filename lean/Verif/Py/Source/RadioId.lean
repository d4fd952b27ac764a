import Verif.Py.Syntax
/-
Generated by tools/mkpyast.py: okdmr/kaitai/hytera/radio_id.py as data.
-/

set_option autoImplicit false

namespace Dmr.Py.Source.Hytera

/-- okdmr/kaitai/hytera/radio_id.py:14-32 -/
def RadioId : ClassDef where
  name := "Hytera.RadioId"
  methods := [("__init__", ⟨["self", "_io", "_parent", "_root"],
      [.setattr (.name "self") "_io" (.name "_io"),
       .setattr (.name "self") "_parent" (.name "_parent"),
       .setattr (.name "self") "_root" (.ifExp (.name "_root") (.name "_root") (.name "self")),
       .expr (.call (.attr (.name "self") "_read") [])]⟩),
    ("_read", ⟨["self"],
      [.setattr (.name "self") "radio_id_raw" (.call (.attr (.attr (.name "self") "_io") "read_u4le") [])]⟩)]
  properties := [("radio_id", ⟨["self"],
      [.if_ (.call (.global "hasattr") [.name "self", .str "_m_radio_id"])
        [.return_ (.attr (.name "self") "_m_radio_id")]
        [],
       .setattr (.name "self") "_m_radio_id" (.bin .shr (.attr (.name "self") "radio_id_raw") (.int 8)),
       .return_ (.call (.global "getattr") [.name "self", .str "_m_radio_id", .none])]⟩)]

/-- okdmr/kaitai/hytera/radio_id.py -/
def RadioId.file : File where
  classes := [RadioId]
  enums := []

end Dmr.Py.Source.Hytera
