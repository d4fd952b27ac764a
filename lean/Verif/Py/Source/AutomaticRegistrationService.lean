import Verif.Py.Syntax
/-
Generated by tools/mkpyast.py: okdmr/kaitai/motorola/automatic_registration_service.py as data.
-/

set_option autoImplicit false

namespace Dmr.Py.Source.Motorola

/-- okdmr/kaitai/motorola/automatic_registration_service.py:17-19 -/
def AutomaticRegistrationService.RegistrationEvents : EnumDef where
  qualified := "Motorola.AutomaticRegistrationService.RegistrationEvents"
  name := "RegistrationEvents"
  members := [("initial_event", 1), ("refresh_event", 2)]

/-- okdmr/kaitai/motorola/automatic_registration_service.py:21-22 -/
def AutomaticRegistrationService.FailureReasons : EnumDef where
  qualified := "Motorola.AutomaticRegistrationService.FailureReasons"
  name := "FailureReasons"
  members := [("device_not_authorized", 0)]

/-- okdmr/kaitai/motorola/automatic_registration_service.py:54-78 -/
def AutomaticRegistrationService.AcknowledgementMessage : ClassDef where
  name := "Motorola.AutomaticRegistrationService.AcknowledgementMessage"
  methods := [("__init__", ⟨["self", "_io", "_parent", "_root"],
      [.setattr (.name "self") "_io" (.name "_io"),
       .setattr (.name "self") "_parent" (.name "_parent"),
       .setattr (.name "self") "_root" (.ifExp (.name "_root") (.name "_root") (.name "self")),
       .expr (.call (.attr (.name "self") "_read") [])]⟩),
    ("_read", ⟨["self"],
      [.if_ (.and (.attr (.attr (.attr (.name "self") "_root") "message_header") "extension_bit") (.attr (.attr (.attr (.name "self") "_root") "message_header") "acknowledgement_bit"))
        [.setattr (.name "self") "device_registration_acknowledgement_header" (.call (.cls "Motorola.AutomaticRegistrationService.DeviceRegistrationAcknowledgementHeader") [.attr (.name "self") "_io", .name "self", .attr (.name "self") "_root"])]
        [],
       .if_ (.and (.attr (.attr (.attr (.name "self") "_root") "message_header") "extension_bit") (.not (.attr (.attr (.attr (.name "self") "_root") "message_header") "acknowledgement_bit")))
        [.setattr (.name "self") "device_registration_acknowledgement_failure_reason" (.call (.cls "Motorola.AutomaticRegistrationService.DeviceRegistrationAcknowledgementFailureReason") [.attr (.name "self") "_io", .name "self", .attr (.name "self") "_root"])]
        []]⟩)]
  properties := []

/-- okdmr/kaitai/motorola/automatic_registration_service.py:80-93 -/
def AutomaticRegistrationService.DeviceRegistrationMessageHeader : ClassDef where
  name := "Motorola.AutomaticRegistrationService.DeviceRegistrationMessageHeader"
  methods := [("__init__", ⟨["self", "_io", "_parent", "_root"],
      [.setattr (.name "self") "_io" (.name "_io"),
       .setattr (.name "self") "_parent" (.name "_parent"),
       .setattr (.name "self") "_root" (.ifExp (.name "_root") (.name "_root") (.name "self")),
       .expr (.call (.attr (.name "self") "_read") [])]⟩),
    ("_read", ⟨["self"],
      [.setattr (.name "self") "extension_bit" (.cmp .ne (.call (.attr (.attr (.name "self") "_io") "read_bits_int_be") [.int 1]) (.int 0)),
       .setattr (.name "self") "event" (.call (.attr (.global "KaitaiStream") "resolve_enum") [.enum "Motorola.AutomaticRegistrationService.RegistrationEvents", .call (.attr (.attr (.name "self") "_io") "read_bits_int_be") [.int 2]]),
       .setattr (.name "self") "encoding" (.call (.attr (.attr (.name "self") "_io") "read_bits_int_be") [.int 5])]⟩)]
  properties := []

/-- okdmr/kaitai/motorola/automatic_registration_service.py:95-107 -/
def AutomaticRegistrationService.MessageHeaderBits : ClassDef where
  name := "Motorola.AutomaticRegistrationService.MessageHeaderBits"
  methods := [("__init__", ⟨["self", "_io", "_parent", "_root"],
      [.setattr (.name "self") "_io" (.name "_io"),
       .setattr (.name "self") "_parent" (.name "_parent"),
       .setattr (.name "self") "_root" (.ifExp (.name "_root") (.name "_root") (.name "self")),
       .expr (.call (.attr (.name "self") "_read") [])]⟩),
    ("_read", ⟨["self"],
      [.setattr (.name "self") "extension_bit" (.cmp .ne (.call (.attr (.attr (.name "self") "_io") "read_bits_int_be") [.int 1]) (.int 0)),
       .setattr (.name "self") "acknowledgement_bit" (.cmp .ne (.call (.attr (.attr (.name "self") "_io") "read_bits_int_be") [.int 1]) (.int 0)),
       .setattr (.name "self") "priority" (.cmp .ne (.call (.attr (.attr (.name "self") "_io") "read_bits_int_be") [.int 1]) (.int 0)),
       .setattr (.name "self") "control_user_bit" (.cmp .ne (.call (.attr (.attr (.name "self") "_io") "read_bits_int_be") [.int 1]) (.int 0)),
       .setattr (.name "self") "pdu_type" (.call (.attr (.attr (.name "self") "_io") "read_bits_int_be") [.int 4])]⟩)]
  properties := []

/-- okdmr/kaitai/motorola/automatic_registration_service.py:109-119 -/
def AutomaticRegistrationService.DeviceDeregistrationMessage : ClassDef where
  name := "Motorola.AutomaticRegistrationService.DeviceDeregistrationMessage"
  methods := [("__init__", ⟨["self", "_io", "_parent", "_root"],
      [.setattr (.name "self") "_io" (.name "_io"),
       .setattr (.name "self") "_parent" (.name "_parent"),
       .setattr (.name "self") "_root" (.ifExp (.name "_root") (.name "_root") (.name "self")),
       .expr (.call (.attr (.name "self") "_read") [])]⟩),
    ("_read", ⟨["self"],
      [.pass_]⟩)]
  properties := []

/-- okdmr/kaitai/motorola/automatic_registration_service.py:121-135 -/
def AutomaticRegistrationService.DeviceRegistrationAcknowledgementFailureReason : ClassDef where
  name := "Motorola.AutomaticRegistrationService.DeviceRegistrationAcknowledgementFailureReason"
  methods := [("__init__", ⟨["self", "_io", "_parent", "_root"],
      [.setattr (.name "self") "_io" (.name "_io"),
       .setattr (.name "self") "_parent" (.name "_parent"),
       .setattr (.name "self") "_root" (.ifExp (.name "_root") (.name "_root") (.name "self")),
       .expr (.call (.attr (.name "self") "_read") [])]⟩),
    ("_read", ⟨["self"],
      [.setattr (.name "self") "extension_bit" (.cmp .ne (.call (.attr (.attr (.name "self") "_io") "read_bits_int_be") [.int 1]) (.int 0)),
       .setattr (.name "self") "failure_reason" (.call (.attr (.global "KaitaiStream") "resolve_enum") [.enum "Motorola.AutomaticRegistrationService.FailureReasons", .call (.attr (.attr (.name "self") "_io") "read_bits_int_be") [.int 7]])]⟩)]
  properties := []

/-- okdmr/kaitai/motorola/automatic_registration_service.py:137-164 -/
def AutomaticRegistrationService.DeviceRegistrationMessage : ClassDef where
  name := "Motorola.AutomaticRegistrationService.DeviceRegistrationMessage"
  methods := [("__init__", ⟨["self", "_io", "_parent", "_root"],
      [.setattr (.name "self") "_io" (.name "_io"),
       .setattr (.name "self") "_parent" (.name "_parent"),
       .setattr (.name "self") "_root" (.ifExp (.name "_root") (.name "_root") (.name "self")),
       .expr (.call (.attr (.name "self") "_read") [])]⟩),
    ("_read", ⟨["self"],
      [.if_ (.attr (.attr (.attr (.name "self") "_root") "message_header") "extension_bit")
        [.setattr (.name "self") "device_registration_message_header" (.call (.cls "Motorola.AutomaticRegistrationService.DeviceRegistrationMessageHeader") [.attr (.name "self") "_io", .name "self", .attr (.name "self") "_root"])]
        [],
       .setattr (.name "self") "len_device_identifier" (.call (.attr (.attr (.name "self") "_io") "read_u1") []),
       .if_ (.cmp .gt (.attr (.name "self") "len_device_identifier") (.int 0))
        [.setattr (.name "self") "device_identifier" (.call (.attr (.attr (.name "self") "_io") "read_bytes") [.attr (.name "self") "len_device_identifier"])]
        [],
       .setattr (.name "self") "len_user_identifier" (.call (.attr (.attr (.name "self") "_io") "read_u1") []),
       .if_ (.cmp .gt (.attr (.name "self") "len_user_identifier") (.int 0))
        [.setattr (.name "self") "user_identifier" (.call (.attr (.attr (.name "self") "_io") "read_bytes") [.attr (.name "self") "len_user_identifier"])]
        [],
       .setattr (.name "self") "len_password" (.call (.attr (.attr (.name "self") "_io") "read_u1") []),
       .if_ (.cmp .gt (.attr (.name "self") "len_password") (.int 0))
        [.setattr (.name "self") "password" (.call (.attr (.attr (.name "self") "_io") "read_bytes") [.attr (.name "self") "len_password"])]
        []]⟩)]
  properties := []

/-- okdmr/kaitai/motorola/automatic_registration_service.py:166-176 -/
def AutomaticRegistrationService.ArsQueryMessage : ClassDef where
  name := "Motorola.AutomaticRegistrationService.ArsQueryMessage"
  methods := [("__init__", ⟨["self", "_io", "_parent", "_root"],
      [.setattr (.name "self") "_io" (.name "_io"),
       .setattr (.name "self") "_parent" (.name "_parent"),
       .setattr (.name "self") "_root" (.ifExp (.name "_root") (.name "_root") (.name "self")),
       .expr (.call (.attr (.name "self") "_read") [])]⟩),
    ("_read", ⟨["self"],
      [.pass_]⟩)]
  properties := []

/-- okdmr/kaitai/motorola/automatic_registration_service.py:178-189 -/
def AutomaticRegistrationService.DeviceRegistrationAcknowledgementHeader : ClassDef where
  name := "Motorola.AutomaticRegistrationService.DeviceRegistrationAcknowledgementHeader"
  methods := [("__init__", ⟨["self", "_io", "_parent", "_root"],
      [.setattr (.name "self") "_io" (.name "_io"),
       .setattr (.name "self") "_parent" (.name "_parent"),
       .setattr (.name "self") "_root" (.ifExp (.name "_root") (.name "_root") (.name "self")),
       .expr (.call (.attr (.name "self") "_read") [])]⟩),
    ("_read", ⟨["self"],
      [.setattr (.name "self") "extension_bit" (.cmp .ne (.call (.attr (.attr (.name "self") "_io") "read_bits_int_be") [.int 1]) (.int 0)),
       .setattr (.name "self") "refresh_time" (.call (.attr (.attr (.name "self") "_io") "read_bits_int_be") [.int 7])]⟩)]
  properties := []

/-- okdmr/kaitai/motorola/automatic_registration_service.py:15-189 -/
def AutomaticRegistrationService : ClassDef where
  name := "Motorola.AutomaticRegistrationService"
  methods := [("__init__", ⟨["self", "_io", "_parent", "_root"],
      [.setattr (.name "self") "_io" (.name "_io"),
       .setattr (.name "self") "_parent" (.name "_parent"),
       .setattr (.name "self") "_root" (.ifExp (.name "_root") (.name "_root") (.name "self")),
       .expr (.call (.attr (.name "self") "_read") [])]⟩),
    ("_read", ⟨["self"],
      [.setattr (.name "self") "message_size" (.call (.attr (.attr (.name "self") "_io") "read_u2le") []),
       .setattr (.name "self") "message_header" (.call (.cls "Motorola.AutomaticRegistrationService.MessageHeaderBits") [.attr (.name "self") "_io", .name "self", .attr (.name "self") "_root"]),
       .assign "_on" (.attr (.attr (.name "self") "message_header") "pdu_type"),
       .if_ (.cmp .eq (.name "_on") (.int 0))
        [.setattr (.name "self") "pdu_content" (.call (.cls "Motorola.AutomaticRegistrationService.DeviceRegistrationMessage") [.attr (.name "self") "_io", .name "self", .attr (.name "self") "_root"])]
        [.if_ (.cmp .eq (.name "_on") (.int 1))
          [.setattr (.name "self") "pdu_content" (.call (.cls "Motorola.AutomaticRegistrationService.DeviceDeregistrationMessage") [.attr (.name "self") "_io", .name "self", .attr (.name "self") "_root"])]
          [.if_ (.cmp .eq (.name "_on") (.int 4))
            [.setattr (.name "self") "pdu_content" (.call (.cls "Motorola.AutomaticRegistrationService.ArsQueryMessage") [.attr (.name "self") "_io", .name "self", .attr (.name "self") "_root"])]
            [.if_ (.cmp .eq (.name "_on") (.int 15))
              [.setattr (.name "self") "pdu_content" (.call (.cls "Motorola.AutomaticRegistrationService.AcknowledgementMessage") [.attr (.name "self") "_io", .name "self", .attr (.name "self") "_root"])]
              []]]],
       .setattr (.name "self") "unparsed_data" (.call (.attr (.attr (.name "self") "_io") "read_bytes_full") [])]⟩)]
  properties := []

/-- okdmr/kaitai/motorola/automatic_registration_service.py -/
def AutomaticRegistrationService.file : File where
  classes := [AutomaticRegistrationService.AcknowledgementMessage,
    AutomaticRegistrationService.DeviceRegistrationMessageHeader,
    AutomaticRegistrationService.MessageHeaderBits,
    AutomaticRegistrationService.DeviceDeregistrationMessage,
    AutomaticRegistrationService.DeviceRegistrationAcknowledgementFailureReason,
    AutomaticRegistrationService.DeviceRegistrationMessage,
    AutomaticRegistrationService.ArsQueryMessage,
    AutomaticRegistrationService.DeviceRegistrationAcknowledgementHeader,
    AutomaticRegistrationService]
  enums := [AutomaticRegistrationService.RegistrationEvents,
    AutomaticRegistrationService.FailureReasons]

end Dmr.Py.Source.Motorola
