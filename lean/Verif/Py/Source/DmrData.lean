import Verif.Py.Syntax
/-
Generated by tools/mkpyast.py: okdmr/kaitai/etsi/dmr_data.py as data.
-/

set_option autoImplicit false

namespace Dmr.Py.Source.Etsi

/-- okdmr/kaitai/etsi/dmr_data.py:26-37 -/
def DmrData.Rate1LastBlockUnconfirmed : ClassDef where
  name := "Etsi.DmrData.Rate1LastBlockUnconfirmed"
  methods := [("__init__", ⟨["self", "_io", "_parent", "_root"],
      [.setattr (.name "self") "_io" (.name "_io"),
       .setattr (.name "self") "_parent" (.name "_parent"),
       .setattr (.name "self") "_root" (.ifExp (.name "_root") (.name "_root") (.name "self")),
       .expr (.call (.attr (.name "self") "_read") [])]⟩),
    ("_read", ⟨["self"],
      [.setattr (.name "self") "user_data" (.call (.attr (.attr (.name "self") "_io") "read_bytes") [.int 20]),
       .setattr (.name "self") "message_crc32" (.call (.attr (.attr (.name "self") "_io") "read_bytes") [.int 4])]⟩)]
  properties := []

/-- okdmr/kaitai/etsi/dmr_data.py:39-53 -/
def DmrData.Rate12LastBlockConfirmed : ClassDef where
  name := "Etsi.DmrData.Rate12LastBlockConfirmed"
  methods := [("__init__", ⟨["self", "_io", "_parent", "_root"],
      [.setattr (.name "self") "_io" (.name "_io"),
       .setattr (.name "self") "_parent" (.name "_parent"),
       .setattr (.name "self") "_root" (.ifExp (.name "_root") (.name "_root") (.name "self")),
       .expr (.call (.attr (.name "self") "_read") [])]⟩),
    ("_read", ⟨["self"],
      [.setattr (.name "self") "data_block_serial_number" (.call (.attr (.attr (.name "self") "_io") "read_bits_int_be") [.int 7]),
       .setattr (.name "self") "crc9" (.call (.attr (.attr (.name "self") "_io") "read_bits_int_be") [.int 9]),
       .expr (.call (.attr (.attr (.name "self") "_io") "align_to_byte") []),
       .setattr (.name "self") "user_data" (.call (.attr (.attr (.name "self") "_io") "read_bytes") [.int 6]),
       .setattr (.name "self") "message_crc32" (.call (.attr (.attr (.name "self") "_io") "read_bytes") [.int 4])]⟩)]
  properties := []

/-- okdmr/kaitai/etsi/dmr_data.py:55-68 -/
def DmrData.Rate12Confirmed : ClassDef where
  name := "Etsi.DmrData.Rate12Confirmed"
  methods := [("__init__", ⟨["self", "_io", "_parent", "_root"],
      [.setattr (.name "self") "_io" (.name "_io"),
       .setattr (.name "self") "_parent" (.name "_parent"),
       .setattr (.name "self") "_root" (.ifExp (.name "_root") (.name "_root") (.name "self")),
       .expr (.call (.attr (.name "self") "_read") [])]⟩),
    ("_read", ⟨["self"],
      [.setattr (.name "self") "data_block_serial_number" (.call (.attr (.attr (.name "self") "_io") "read_bits_int_be") [.int 7]),
       .setattr (.name "self") "crc9" (.call (.attr (.attr (.name "self") "_io") "read_bits_int_be") [.int 9]),
       .expr (.call (.attr (.attr (.name "self") "_io") "align_to_byte") []),
       .setattr (.name "self") "user_data" (.call (.attr (.attr (.name "self") "_io") "read_bytes") [.int 10])]⟩)]
  properties := []

/-- okdmr/kaitai/etsi/dmr_data.py:70-81 -/
def DmrData.Rate34LastBlockUnconfirmed : ClassDef where
  name := "Etsi.DmrData.Rate34LastBlockUnconfirmed"
  methods := [("__init__", ⟨["self", "_io", "_parent", "_root"],
      [.setattr (.name "self") "_io" (.name "_io"),
       .setattr (.name "self") "_parent" (.name "_parent"),
       .setattr (.name "self") "_root" (.ifExp (.name "_root") (.name "_root") (.name "self")),
       .expr (.call (.attr (.name "self") "_read") [])]⟩),
    ("_read", ⟨["self"],
      [.setattr (.name "self") "user_data" (.call (.attr (.attr (.name "self") "_io") "read_bytes") [.int 14]),
       .setattr (.name "self") "message_crc32" (.call (.attr (.attr (.name "self") "_io") "read_bytes") [.int 4])]⟩)]
  properties := []

/-- okdmr/kaitai/etsi/dmr_data.py:83-97 -/
def DmrData.Rate1LastBlockConfirmed : ClassDef where
  name := "Etsi.DmrData.Rate1LastBlockConfirmed"
  methods := [("__init__", ⟨["self", "_io", "_parent", "_root"],
      [.setattr (.name "self") "_io" (.name "_io"),
       .setattr (.name "self") "_parent" (.name "_parent"),
       .setattr (.name "self") "_root" (.ifExp (.name "_root") (.name "_root") (.name "self")),
       .expr (.call (.attr (.name "self") "_read") [])]⟩),
    ("_read", ⟨["self"],
      [.setattr (.name "self") "data_block_serial_number" (.call (.attr (.attr (.name "self") "_io") "read_bits_int_be") [.int 7]),
       .setattr (.name "self") "crc9" (.call (.attr (.attr (.name "self") "_io") "read_bits_int_be") [.int 9]),
       .expr (.call (.attr (.attr (.name "self") "_io") "align_to_byte") []),
       .setattr (.name "self") "user_data" (.call (.attr (.attr (.name "self") "_io") "read_bytes") [.int 18]),
       .setattr (.name "self") "message_crc32" (.call (.attr (.attr (.name "self") "_io") "read_bytes") [.int 4])]⟩)]
  properties := []

/-- okdmr/kaitai/etsi/dmr_data.py:99-109 -/
def DmrData.Rate1Unconfirmed : ClassDef where
  name := "Etsi.DmrData.Rate1Unconfirmed"
  methods := [("__init__", ⟨["self", "_io", "_parent", "_root"],
      [.setattr (.name "self") "_io" (.name "_io"),
       .setattr (.name "self") "_parent" (.name "_parent"),
       .setattr (.name "self") "_root" (.ifExp (.name "_root") (.name "_root") (.name "self")),
       .expr (.call (.attr (.name "self") "_read") [])]⟩),
    ("_read", ⟨["self"],
      [.setattr (.name "self") "user_data" (.call (.attr (.attr (.name "self") "_io") "read_bytes") [.int 24])]⟩)]
  properties := []

/-- okdmr/kaitai/etsi/dmr_data.py:111-122 -/
def DmrData.UdtLastBlock : ClassDef where
  name := "Etsi.DmrData.UdtLastBlock"
  methods := [("__init__", ⟨["self", "_io", "_parent", "_root"],
      [.setattr (.name "self") "_io" (.name "_io"),
       .setattr (.name "self") "_parent" (.name "_parent"),
       .setattr (.name "self") "_root" (.ifExp (.name "_root") (.name "_root") (.name "self")),
       .expr (.call (.attr (.name "self") "_read") [])]⟩),
    ("_read", ⟨["self"],
      [.setattr (.name "self") "user_data" (.call (.attr (.attr (.name "self") "_io") "read_bytes") [.int 10]),
       .setattr (.name "self") "message_crc16" (.call (.attr (.attr (.name "self") "_io") "read_bytes") [.int 2])]⟩)]
  properties := []

/-- okdmr/kaitai/etsi/dmr_data.py:124-137 -/
def DmrData.Rate34Confirmed : ClassDef where
  name := "Etsi.DmrData.Rate34Confirmed"
  methods := [("__init__", ⟨["self", "_io", "_parent", "_root"],
      [.setattr (.name "self") "_io" (.name "_io"),
       .setattr (.name "self") "_parent" (.name "_parent"),
       .setattr (.name "self") "_root" (.ifExp (.name "_root") (.name "_root") (.name "self")),
       .expr (.call (.attr (.name "self") "_read") [])]⟩),
    ("_read", ⟨["self"],
      [.setattr (.name "self") "data_block_serial_number" (.call (.attr (.attr (.name "self") "_io") "read_bits_int_be") [.int 7]),
       .setattr (.name "self") "crc9" (.call (.attr (.attr (.name "self") "_io") "read_bits_int_be") [.int 9]),
       .expr (.call (.attr (.attr (.name "self") "_io") "align_to_byte") []),
       .setattr (.name "self") "user_data" (.call (.attr (.attr (.name "self") "_io") "read_bytes") [.int 16])]⟩)]
  properties := []

/-- okdmr/kaitai/etsi/dmr_data.py:139-153 -/
def DmrData.Rate34LastBlockConfirmed : ClassDef where
  name := "Etsi.DmrData.Rate34LastBlockConfirmed"
  methods := [("__init__", ⟨["self", "_io", "_parent", "_root"],
      [.setattr (.name "self") "_io" (.name "_io"),
       .setattr (.name "self") "_parent" (.name "_parent"),
       .setattr (.name "self") "_root" (.ifExp (.name "_root") (.name "_root") (.name "self")),
       .expr (.call (.attr (.name "self") "_read") [])]⟩),
    ("_read", ⟨["self"],
      [.setattr (.name "self") "data_block_serial_number" (.call (.attr (.attr (.name "self") "_io") "read_bits_int_be") [.int 7]),
       .setattr (.name "self") "crc9" (.call (.attr (.attr (.name "self") "_io") "read_bits_int_be") [.int 9]),
       .expr (.call (.attr (.attr (.name "self") "_io") "align_to_byte") []),
       .setattr (.name "self") "user_data" (.call (.attr (.attr (.name "self") "_io") "read_bytes") [.int 12]),
       .setattr (.name "self") "message_crc32" (.call (.attr (.attr (.name "self") "_io") "read_bytes") [.int 4])]⟩)]
  properties := []

/-- okdmr/kaitai/etsi/dmr_data.py:155-165 -/
def DmrData.Rate34Unconfirmed : ClassDef where
  name := "Etsi.DmrData.Rate34Unconfirmed"
  methods := [("__init__", ⟨["self", "_io", "_parent", "_root"],
      [.setattr (.name "self") "_io" (.name "_io"),
       .setattr (.name "self") "_parent" (.name "_parent"),
       .setattr (.name "self") "_root" (.ifExp (.name "_root") (.name "_root") (.name "self")),
       .expr (.call (.attr (.name "self") "_read") [])]⟩),
    ("_read", ⟨["self"],
      [.setattr (.name "self") "user_data" (.call (.attr (.attr (.name "self") "_io") "read_bytes") [.int 18])]⟩)]
  properties := []

/-- okdmr/kaitai/etsi/dmr_data.py:167-178 -/
def DmrData.Rate12LastBlockUnconfirmed : ClassDef where
  name := "Etsi.DmrData.Rate12LastBlockUnconfirmed"
  methods := [("__init__", ⟨["self", "_io", "_parent", "_root"],
      [.setattr (.name "self") "_io" (.name "_io"),
       .setattr (.name "self") "_parent" (.name "_parent"),
       .setattr (.name "self") "_root" (.ifExp (.name "_root") (.name "_root") (.name "self")),
       .expr (.call (.attr (.name "self") "_read") [])]⟩),
    ("_read", ⟨["self"],
      [.setattr (.name "self") "user_data" (.call (.attr (.attr (.name "self") "_io") "read_bytes") [.int 8]),
       .setattr (.name "self") "message_crc32" (.call (.attr (.attr (.name "self") "_io") "read_bytes") [.int 4])]⟩)]
  properties := []

/-- okdmr/kaitai/etsi/dmr_data.py:180-193 -/
def DmrData.Rate1Confirmed : ClassDef where
  name := "Etsi.DmrData.Rate1Confirmed"
  methods := [("__init__", ⟨["self", "_io", "_parent", "_root"],
      [.setattr (.name "self") "_io" (.name "_io"),
       .setattr (.name "self") "_parent" (.name "_parent"),
       .setattr (.name "self") "_root" (.ifExp (.name "_root") (.name "_root") (.name "self")),
       .expr (.call (.attr (.name "self") "_read") [])]⟩),
    ("_read", ⟨["self"],
      [.setattr (.name "self") "data_block_serial_number" (.call (.attr (.attr (.name "self") "_io") "read_bits_int_be") [.int 7]),
       .setattr (.name "self") "crc9" (.call (.attr (.attr (.name "self") "_io") "read_bits_int_be") [.int 9]),
       .expr (.call (.attr (.attr (.name "self") "_io") "align_to_byte") []),
       .setattr (.name "self") "user_data" (.call (.attr (.attr (.name "self") "_io") "read_bytes") [.int 22])]⟩)]
  properties := []

/-- okdmr/kaitai/etsi/dmr_data.py:195-205 -/
def DmrData.Rate12Unconfirmed : ClassDef where
  name := "Etsi.DmrData.Rate12Unconfirmed"
  methods := [("__init__", ⟨["self", "_io", "_parent", "_root"],
      [.setattr (.name "self") "_io" (.name "_io"),
       .setattr (.name "self") "_parent" (.name "_parent"),
       .setattr (.name "self") "_root" (.ifExp (.name "_root") (.name "_root") (.name "self")),
       .expr (.call (.attr (.name "self") "_read") [])]⟩),
    ("_read", ⟨["self"],
      [.setattr (.name "self") "user_data" (.call (.attr (.attr (.name "self") "_io") "read_bytes") [.int 12])]⟩)]
  properties := []

/-- okdmr/kaitai/etsi/dmr_data.py:14-205 -/
def DmrData : ClassDef where
  name := "Etsi.DmrData"
  methods := [("__init__", ⟨["self", "_io", "_parent", "_root"],
      [.setattr (.name "self") "_io" (.name "_io"),
       .setattr (.name "self") "_parent" (.name "_parent"),
       .setattr (.name "self") "_root" (.ifExp (.name "_root") (.name "_root") (.name "self")),
       .expr (.call (.attr (.name "self") "_read") [])]⟩),
    ("_read", ⟨["self"],
      [.pass_]⟩)]
  properties := []

/-- okdmr/kaitai/etsi/dmr_data.py -/
def DmrData.file : File where
  classes := [DmrData.Rate1LastBlockUnconfirmed,
    DmrData.Rate12LastBlockConfirmed,
    DmrData.Rate12Confirmed,
    DmrData.Rate34LastBlockUnconfirmed,
    DmrData.Rate1LastBlockConfirmed,
    DmrData.Rate1Unconfirmed,
    DmrData.UdtLastBlock,
    DmrData.Rate34Confirmed,
    DmrData.Rate34LastBlockConfirmed,
    DmrData.Rate34Unconfirmed,
    DmrData.Rate12LastBlockUnconfirmed,
    DmrData.Rate1Confirmed,
    DmrData.Rate12Unconfirmed,
    DmrData]
  enums := []

end Dmr.Py.Source.Etsi
