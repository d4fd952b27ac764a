import Verif.Py.Syntax
/-
Generated by tools/mkpyast.py: okdmr/kaitai/hytera/radio_registration_service.py as data.
-/

set_option autoImplicit false

namespace Dmr.Py.Source.Hytera

/-- okdmr/kaitai/hytera/radio_registration_service.py:19-24 -/
def RadioRegistrationService.RrsTypes : EnumDef where
  qualified := "Hytera.RadioRegistrationService.RrsTypes"
  name := "RrsTypes"
  members := [("de_registration", 1), ("online_check", 2), ("registration", 3), ("registration_ack", 128), ("online_check_ack", 130)]

/-- okdmr/kaitai/hytera/radio_registration_service.py:17-49 -/
def RadioRegistrationService : ClassDef where
  name := "Hytera.RadioRegistrationService"
  methods := [("__init__", ⟨["self", "_io", "_parent", "_root"],
      [.setattr (.name "self") "_io" (.name "_io"),
       .setattr (.name "self") "_parent" (.name "_parent"),
       .setattr (.name "self") "_root" (.ifExp (.name "_root") (.name "_root") (.name "self")),
       .expr (.call (.attr (.name "self") "_read") [])]⟩),
    ("_read", ⟨["self"],
      [.setattr (.name "self") "opcode" (.call (.attr (.attr (.name "self") "_io") "read_bytes") [.int 1]),
       .if_ (.not (.cmp .eq (.attr (.name "self") "opcode") (.bytes [0])))
        [.raise_ (.call (.attr (.global "kaitaistruct") "ValidationNotEqualError") [.bytes [0], .attr (.name "self") "opcode", .attr (.name "self") "_io", .str "/seq/0"])]
        [],
       .setattr (.name "self") "rrs_type" (.call (.attr (.global "KaitaiStream") "resolve_enum") [.enum "Hytera.RadioRegistrationService.RrsTypes", .call (.attr (.attr (.name "self") "_io") "read_u1") []]),
       .setattr (.name "self") "message_length" (.call (.attr (.attr (.name "self") "_io") "read_u2be") []),
       .setattr (.name "self") "radio_ip" (.call (.cls "Hytera.RadioIp") [.attr (.name "self") "_io"]),
       .if_ (.or (.cmp .eq (.attr (.name "self") "rrs_type") (.attr (.enum "Hytera.RadioRegistrationService.RrsTypes") "registration_ack")) (.cmp .eq (.attr (.name "self") "rrs_type") (.attr (.enum "Hytera.RadioRegistrationService.RrsTypes") "online_check_ack")))
        [.setattr (.name "self") "result" (.call (.attr (.attr (.name "self") "_io") "read_u1") [])]
        [],
       .if_ (.cmp .eq (.attr (.name "self") "rrs_type") (.attr (.enum "Hytera.RadioRegistrationService.RrsTypes") "registration_ack"))
        [.setattr (.name "self") "valid_time" (.call (.attr (.attr (.name "self") "_io") "read_u4be") [])]
        []]⟩)]
  properties := []

/-- okdmr/kaitai/hytera/radio_registration_service.py -/
def RadioRegistrationService.file : File where
  classes := [RadioRegistrationService]
  enums := [RadioRegistrationService.RrsTypes]

end Dmr.Py.Source.Hytera
