import Verif.Py.Syntax
/-
Generated by tools/mkpyast.py: okdmr/kaitai/hytera/radio_ip.py as data.
-/

set_option autoImplicit false

namespace Dmr.Py.Source.Hytera

/-- okdmr/kaitai/hytera/radio_ip.py:14-56 -/
def RadioIp : ClassDef where
  name := "Hytera.RadioIp"
  methods := [("__init__", ⟨["self", "_io", "_parent", "_root"],
      [.setattr (.name "self") "_io" (.name "_io"),
       .setattr (.name "self") "_parent" (.name "_parent"),
       .setattr (.name "self") "_root" (.ifExp (.name "_root") (.name "_root") (.name "self")),
       .expr (.call (.attr (.name "self") "_read") [])]⟩),
    ("_read", ⟨["self"],
      [.setattr (.name "self") "subnet" (.call (.attr (.attr (.name "self") "_io") "read_u1") []),
       .setattr (.name "self") "radio_id_1" (.call (.attr (.attr (.name "self") "_io") "read_u1") []),
       .setattr (.name "self") "radio_id_2" (.call (.attr (.attr (.name "self") "_io") "read_u1") []),
       .setattr (.name "self") "radio_id_3" (.call (.attr (.attr (.name "self") "_io") "read_u1") [])]⟩)]
  properties := [("radio_id", ⟨["self"],
      [.if_ (.call (.global "hasattr") [.name "self", .str "_m_radio_id"])
        [.return_ (.attr (.name "self") "_m_radio_id")]
        [],
       .setattr (.name "self") "_m_radio_id" (.bin .add (.bin .add (.bin .shl (.attr (.name "self") "radio_id_1") (.int 16)) (.bin .shl (.attr (.name "self") "radio_id_2") (.int 8))) (.attr (.name "self") "radio_id_3")),
       .return_ (.call (.global "getattr") [.name "self", .str "_m_radio_id", .none])]⟩),
    ("radio_ip", ⟨["self"],
      [.if_ (.call (.global "hasattr") [.name "self", .str "_m_radio_ip"])
        [.return_ (.attr (.name "self") "_m_radio_ip")]
        [],
       .setattr (.name "self") "_m_radio_ip" (.bin .add (.bin .add (.bin .add (.bin .add (.bin .add (.bin .add (.call (.global "str") [.attr (.name "self") "subnet"]) (.str ".")) (.call (.global "str") [.attr (.name "self") "radio_id_1"])) (.str ".")) (.call (.global "str") [.attr (.name "self") "radio_id_2"])) (.str ".")) (.call (.global "str") [.attr (.name "self") "radio_id_3"])),
       .return_ (.call (.global "getattr") [.name "self", .str "_m_radio_ip", .none])]⟩)]

/-- okdmr/kaitai/hytera/radio_ip.py -/
def RadioIp.file : File where
  classes := [RadioIp]
  enums := []

end Dmr.Py.Source.Hytera
