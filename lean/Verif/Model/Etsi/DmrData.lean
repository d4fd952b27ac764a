import Verif.Runtime
/-
Model of okdmr/kaitai/etsi/dmr_data.py (generated by tools/py2lean.py from the Python AST;
definitions marked "hand-written" are not).
-/

namespace Dmr.Etsi

/-- okdmr/kaitai/etsi/dmr_data.py:35-37 attributes of `DmrData.Rate1LastBlockUnconfirmed`. -/
structure DmrData.Rate1LastBlockUnconfirmed where
  user_data : Bytes
  message_crc32 : Bytes
  deriving DecidableEq

/-- okdmr/kaitai/etsi/dmr_data.py:35-37 `DmrData.Rate1LastBlockUnconfirmed._read`. -/
def DmrData.Rate1LastBlockUnconfirmed.read : Rd DmrData.Rate1LastBlockUnconfirmed := do
  let user_data ← readBytes 20
  let message_crc32 ← readBytes 4
  return { user_data, message_crc32 }

/-- okdmr/kaitai/etsi/dmr_data.py:48-53 attributes of `DmrData.Rate12LastBlockConfirmed`. -/
structure DmrData.Rate12LastBlockConfirmed where
  data_block_serial_number : Nat
  crc9 : Nat
  user_data : Bytes
  message_crc32 : Bytes
  deriving DecidableEq

/-- okdmr/kaitai/etsi/dmr_data.py:48-53 `DmrData.Rate12LastBlockConfirmed._read`. -/
def DmrData.Rate12LastBlockConfirmed.read : Rd DmrData.Rate12LastBlockConfirmed := do
  let data_block_serial_number ← readBitsIntBe 7
  let crc9 ← readBitsIntBe 9
  alignToByte
  let user_data ← readBytes 6
  let message_crc32 ← readBytes 4
  return { data_block_serial_number, crc9, user_data, message_crc32 }

/-- okdmr/kaitai/etsi/dmr_data.py:64-68 attributes of `DmrData.Rate12Confirmed`. -/
structure DmrData.Rate12Confirmed where
  data_block_serial_number : Nat
  crc9 : Nat
  user_data : Bytes
  deriving DecidableEq

/-- okdmr/kaitai/etsi/dmr_data.py:64-68 `DmrData.Rate12Confirmed._read`. -/
def DmrData.Rate12Confirmed.read : Rd DmrData.Rate12Confirmed := do
  let data_block_serial_number ← readBitsIntBe 7
  let crc9 ← readBitsIntBe 9
  alignToByte
  let user_data ← readBytes 10
  return { data_block_serial_number, crc9, user_data }

/-- okdmr/kaitai/etsi/dmr_data.py:79-81 attributes of `DmrData.Rate34LastBlockUnconfirmed`. -/
structure DmrData.Rate34LastBlockUnconfirmed where
  user_data : Bytes
  message_crc32 : Bytes
  deriving DecidableEq

/-- okdmr/kaitai/etsi/dmr_data.py:79-81 `DmrData.Rate34LastBlockUnconfirmed._read`. -/
def DmrData.Rate34LastBlockUnconfirmed.read : Rd DmrData.Rate34LastBlockUnconfirmed := do
  let user_data ← readBytes 14
  let message_crc32 ← readBytes 4
  return { user_data, message_crc32 }

/-- okdmr/kaitai/etsi/dmr_data.py:92-97 attributes of `DmrData.Rate1LastBlockConfirmed`. -/
structure DmrData.Rate1LastBlockConfirmed where
  data_block_serial_number : Nat
  crc9 : Nat
  user_data : Bytes
  message_crc32 : Bytes
  deriving DecidableEq

/-- okdmr/kaitai/etsi/dmr_data.py:92-97 `DmrData.Rate1LastBlockConfirmed._read`. -/
def DmrData.Rate1LastBlockConfirmed.read : Rd DmrData.Rate1LastBlockConfirmed := do
  let data_block_serial_number ← readBitsIntBe 7
  let crc9 ← readBitsIntBe 9
  alignToByte
  let user_data ← readBytes 18
  let message_crc32 ← readBytes 4
  return { data_block_serial_number, crc9, user_data, message_crc32 }

/-- okdmr/kaitai/etsi/dmr_data.py:108-109 attributes of `DmrData.Rate1Unconfirmed`. -/
structure DmrData.Rate1Unconfirmed where
  user_data : Bytes
  deriving DecidableEq

/-- okdmr/kaitai/etsi/dmr_data.py:108-109 `DmrData.Rate1Unconfirmed._read`. -/
def DmrData.Rate1Unconfirmed.read : Rd DmrData.Rate1Unconfirmed := do
  let user_data ← readBytes 24
  return { user_data }

/-- okdmr/kaitai/etsi/dmr_data.py:120-122 attributes of `DmrData.UdtLastBlock`. -/
structure DmrData.UdtLastBlock where
  user_data : Bytes
  message_crc16 : Bytes
  deriving DecidableEq

/-- okdmr/kaitai/etsi/dmr_data.py:120-122 `DmrData.UdtLastBlock._read`. -/
def DmrData.UdtLastBlock.read : Rd DmrData.UdtLastBlock := do
  let user_data ← readBytes 10
  let message_crc16 ← readBytes 2
  return { user_data, message_crc16 }

/-- okdmr/kaitai/etsi/dmr_data.py:133-137 attributes of `DmrData.Rate34Confirmed`. -/
structure DmrData.Rate34Confirmed where
  data_block_serial_number : Nat
  crc9 : Nat
  user_data : Bytes
  deriving DecidableEq

/-- okdmr/kaitai/etsi/dmr_data.py:133-137 `DmrData.Rate34Confirmed._read`. -/
def DmrData.Rate34Confirmed.read : Rd DmrData.Rate34Confirmed := do
  let data_block_serial_number ← readBitsIntBe 7
  let crc9 ← readBitsIntBe 9
  alignToByte
  let user_data ← readBytes 16
  return { data_block_serial_number, crc9, user_data }

/-- okdmr/kaitai/etsi/dmr_data.py:148-153 attributes of `DmrData.Rate34LastBlockConfirmed`. -/
structure DmrData.Rate34LastBlockConfirmed where
  data_block_serial_number : Nat
  crc9 : Nat
  user_data : Bytes
  message_crc32 : Bytes
  deriving DecidableEq

/-- okdmr/kaitai/etsi/dmr_data.py:148-153 `DmrData.Rate34LastBlockConfirmed._read`. -/
def DmrData.Rate34LastBlockConfirmed.read : Rd DmrData.Rate34LastBlockConfirmed := do
  let data_block_serial_number ← readBitsIntBe 7
  let crc9 ← readBitsIntBe 9
  alignToByte
  let user_data ← readBytes 12
  let message_crc32 ← readBytes 4
  return { data_block_serial_number, crc9, user_data, message_crc32 }

/-- okdmr/kaitai/etsi/dmr_data.py:164-165 attributes of `DmrData.Rate34Unconfirmed`. -/
structure DmrData.Rate34Unconfirmed where
  user_data : Bytes
  deriving DecidableEq

/-- okdmr/kaitai/etsi/dmr_data.py:164-165 `DmrData.Rate34Unconfirmed._read`. -/
def DmrData.Rate34Unconfirmed.read : Rd DmrData.Rate34Unconfirmed := do
  let user_data ← readBytes 18
  return { user_data }

/-- okdmr/kaitai/etsi/dmr_data.py:176-178 attributes of `DmrData.Rate12LastBlockUnconfirmed`. -/
structure DmrData.Rate12LastBlockUnconfirmed where
  user_data : Bytes
  message_crc32 : Bytes
  deriving DecidableEq

/-- okdmr/kaitai/etsi/dmr_data.py:176-178 `DmrData.Rate12LastBlockUnconfirmed._read`. -/
def DmrData.Rate12LastBlockUnconfirmed.read : Rd DmrData.Rate12LastBlockUnconfirmed := do
  let user_data ← readBytes 8
  let message_crc32 ← readBytes 4
  return { user_data, message_crc32 }

/-- okdmr/kaitai/etsi/dmr_data.py:189-193 attributes of `DmrData.Rate1Confirmed`. -/
structure DmrData.Rate1Confirmed where
  data_block_serial_number : Nat
  crc9 : Nat
  user_data : Bytes
  deriving DecidableEq

/-- okdmr/kaitai/etsi/dmr_data.py:189-193 `DmrData.Rate1Confirmed._read`. -/
def DmrData.Rate1Confirmed.read : Rd DmrData.Rate1Confirmed := do
  let data_block_serial_number ← readBitsIntBe 7
  let crc9 ← readBitsIntBe 9
  alignToByte
  let user_data ← readBytes 22
  return { data_block_serial_number, crc9, user_data }

/-- okdmr/kaitai/etsi/dmr_data.py:204-205 attributes of `DmrData.Rate12Unconfirmed`. -/
structure DmrData.Rate12Unconfirmed where
  user_data : Bytes
  deriving DecidableEq

/-- okdmr/kaitai/etsi/dmr_data.py:204-205 `DmrData.Rate12Unconfirmed._read`. -/
def DmrData.Rate12Unconfirmed.read : Rd DmrData.Rate12Unconfirmed := do
  let user_data ← readBytes 12
  return { user_data }

/-- okdmr/kaitai/etsi/dmr_data.py:23-24 attributes of `DmrData`. -/
structure DmrData where
  deriving DecidableEq

/-- okdmr/kaitai/etsi/dmr_data.py:23-24 `DmrData._read`. -/
def DmrData.read : Rd DmrData := return {}

end Dmr.Etsi
