import Verif.Spec.Pack
import Verif.Model.Homebrew.Homebrew2015
import Verif.Model.Homebrew.Mmdvm2020
/-
Specification of a Homebrew / MMDVM peer: what it wants to say (the constructors below), what it sends (`bytes`), and the object
that the other side should get (`obj`). Nothing here mentions readers or offsets.
-/

set_option autoImplicit false

namespace Dmr.Homebrew

/-- The ASCII bytes of a string. -/
def asc (s : String) : Bytes := s.toList.map fun c => UInt8.ofNat c.toNat

end Dmr.Homebrew

namespace Dmr.Wire

open Spec Homebrew

/-- An ASCII text of any length. -/
structure AsciiText where
  val : List Char
  ascii : ∀ c ∈ val, c.toNat < 128

def AsciiText.bytes (s : AsciiText) : Bytes := s.val.map fun c => UInt8.ofNat c.toNat

/-- What is known about the quality of the reception. -/
inductive Quality
  | unknown
  | ber (bit_error_rate : BitVec 8)
  | berRssi (bit_error_rate rssi : BitVec 8)

def Quality.bytes : Quality → Bytes
  | unknown => []
  | ber e => pack f[e]
  | berRssi e r => pack f[e, r]

def Quality.bit_error_rate : Quality → Option Nat
  | unknown => none
  | ber e | berRssi e _ => some e.toNat

def Quality.rssi : Quality → Option Nat
  | unknown | ber _ => none
  | berRssi _ r => some r.toNat

/-- Octets after it would be taken as its part. -/
def Quality.closed : Quality → Bool
  | unknown | ber _ => true
  | berRssi _ _ => false

/-- A DMR burst with its addresses. -/
structure Burst where
  sequence : BitVec 8
  source : BitVec 24
  target : BitVec 24
  repeater : BitVec 32
  slot : BitVec 1
  call : BitVec 1
  frame : BitVec 2
  data_type : BitVec 4
  stream : BitVec 32
  payload : Octets 33
  quality : Quality

def Burst.bytes (x : Burst) : Bytes :=
  asc "DMRD" ++ (pack f[x.sequence, x.source, x.target, x.repeater, x.slot, x.call, x.frame, x.data_type, x.stream] ++
    (x.payload.val ++ x.quality.bytes))

/-- The description of a repeater in columns; the two protocols differ in the text before the URL. -/
structure Columns where
  call_sign : Ascii 8
  rx_freq : Ascii 9
  tx_freq : Ascii 9
  tx_power : Ascii 2
  color_code : Ascii 2
  latitude : Ascii 8
  longitude : Ascii 9
  height : Ascii 3
  location : Ascii 20
  url : Ascii 124
  software : Ascii 40
  package : Ascii 40

/-- The columns before and after that text. -/
def Columns.before (x : Columns) : List Bytes :=
  [x.call_sign.bytes, x.rx_freq.bytes, x.tx_freq.bytes, x.tx_power.bytes, x.color_code.bytes, x.latitude.bytes, x.longitude.bytes,
    x.height.bytes, x.location.bytes]
def Columns.after (x : Columns) : List Bytes := [x.url.bytes, x.software.bytes, x.package.bytes]

/-- The identifier of a repeater that can send its configuration: the first octet is an ASCII character other than `L`. -/
structure ConfigId where
  id : BitVec 32
  ascii : id.toNat / 2 ^ 24 < 128
  notL : id.toNat / 2 ^ 24 ≠ 0x4C

/-! ### Homebrew 2015 -/

/-- What a packet of the Homebrew protocol can say. -/
inductive Hb
  | login (id : BitVec 32)
  | response (id : BitVec 32) (sha256 : Octets 32)
  | accept (id : BitVec 32) (random : Option (BitVec 32))
  | refuse (id : BitVec 32)
  | masterClosing (id : BitVec 32)
  | repeaterClosing (id : BitVec 32)
  | ping (id : BitVec 32)
  | pong (id : BitVec 32)
  | configuration (id : ConfigId) (columns : Columns) (description : Ascii 20) (rest : AsciiText)
  | burst (burst : Burst)

def Hb.bytes : Hb → Bytes
  | login id => asc "RPTL" ++ pack f[id]
  | response id sha256 => asc "RPTK" ++ (pack f[id] ++ sha256.val)
  | accept id none => asc "MSTA" ++ (asc "CK" ++ pack f[id])
  | accept id (some random) => asc "MSTA" ++ (asc "CK" ++ (pack f[id] ++ pack f[random]))
  | refuse id => asc "MSTN" ++ (asc "AK" ++ pack f[id])
  | masterClosing id => asc "MSTC" ++ (asc "L" ++ pack f[id])
  | repeaterClosing id => asc "RPTC" ++ (asc "L" ++ pack f[id])
  | ping id => asc "MSTP" ++ (asc "ING" ++ pack f[id])
  | pong id => asc "RPTP" ++ (asc "ONG" ++ pack f[id])
  | configuration id columns description rest =>
      asc "RPTC" ++ (pack f[id.id] ++ ((columns.before ++ [description.bytes] ++ columns.after).flatten ++ rest.bytes))
  | burst x => x.bytes

/-- Packets that must end with the datagram, because octets after them would be taken as their part. -/
def Hb.closed : Hb → Bool
  | accept _ none => true
  | configuration .. => true
  | burst x => x.quality.closed
  | _ => false

/-- The first four letters. -/
def Hb.command : Hb → String
  | login _ => "RPTL"
  | response .. => "RPTK"
  | accept .. => "MSTA"
  | refuse _ => "MSTN"
  | masterClosing _ => "MSTC"
  | repeaterClosing _ | configuration .. => "RPTC"
  | ping _ => "MSTP"
  | pong _ => "RPTP"
  | burst _ => "DMRD"

/-- The commands in use. -/
def Hb.commands : List String := ["RPTL", "RPTK", "MSTA", "MSTN", "MSTC", "RPTC", "MSTP", "RPTP", "DMRD"]

def Hb.data : Hb → Homebrew2015.CommandDataUnion
  | login id => .typeRepeaterLoginRequest ⟨id.toNat⟩
  | response id sha256 => .typeRepeaterLoginResponse ⟨id.toNat, sha256.val⟩
  | accept id random => .typeMasterRepeaterAck
      { magictype_master_repeater_ack := asc "CK", repeater_id := id.toNat, random_number := random.map BitVec.toNat }
  | refuse id => .typeMasterNotAccept { magic := asc "AK", repeater_id := id.toNat }
  | masterClosing id => .typeMasterClosing { magic := asc "L", repeater_id := id.toNat }
  | repeaterClosing id =>
      .typeRepeaterConfigurationOrClosing ⟨.typeRepeaterClosing { magic := asc "L", repeater_id := id.toNat }⟩
  | ping id => .typeMasterPing { magic := asc "ING", repeater_id := id.toNat }
  | pong id => .typeRepeaterPong { magic := asc "ONG", repeater_id := id.toNat }
  | configuration id c description rest => .typeRepeaterConfigurationOrClosing ⟨.typeRepeaterConfiguration
      { repeater_id := id.id.toNat, call_sign := c.call_sign.1, rx_freq := c.rx_freq.1, tx_freq := c.tx_freq.1,
        tx_power := c.tx_power.1, color_code := c.color_code.1, latitude := c.latitude.1, longitude := c.longitude.1,
        antenna_height_above_ground := c.height.1, location := c.location.1, description := description.1, url := c.url.1,
        software_id := c.software.1, package_id := c.package.1, unparsed_data := rest.1 }⟩
  | burst x => .typeDmrData
      { sequence_no := x.sequence.toNat, source_id := x.source.toNat, target_id := x.target.toNat, repeater_id := x.repeater.toNat,
        slot_no := resolveEnum _ x.slot.toNat, call_type := resolveEnum _ x.call.toNat, frame_type := resolveEnum _ x.frame.toNat,
        data_type := x.data_type.toNat, stream_id := x.stream.toNat, dmr_data := x.payload.val,
        bit_error_rate := x.quality.bit_error_rate, rssi := x.quality.rssi }

def Hb.obj (msg : Hb) : Homebrew2015 := { command_prefix := msg.command.toList, command_data := some msg.data }

/-! ### MMDVM 2020 -/

/-- What a packet of the MMDVM protocol can say. -/
inductive Mm
  | login (id : BitVec 32)
  | response (id : BitVec 32) (sha256 : Octets 32)
  | accept (id_or_challenge : BitVec 32)
  | refuse (id : BitVec 32)
  | masterClosing (id : BitVec 32)
  | repeaterClosing (id : BitVec 32)
  | ping (id : BitVec 32)
  | pong (id : BitVec 32)
  | configuration (id : ConfigId) (columns : Columns) (description : Ascii 19) (slots : Ascii 1) (rest : AsciiText)
  | options (id : BitVec 32) (text : AsciiText)
  | beacon
  | burst (burst : Burst)
  | position (radio : BitVec 24) (reserved : BitVec 4) (error : BitVec 3) (longitude : BitVec 25) (latitude : BitVec 24)
  | talkerAlias (radio : BitVec 24) (block : BitVec 8) (text : Ascii 8)

def Mm.bytes : Mm → Bytes
  | login id => asc "RPTL" ++ pack f[id]
  | response id sha256 => asc "RPTK" ++ (pack f[id] ++ sha256.val)
  | accept id => asc "RPTA" ++ (asc "CK" ++ pack f[id])
  | refuse id => asc "MSTN" ++ (asc "AK" ++ pack f[id])
  | masterClosing id => asc "MSTC" ++ (asc "L" ++ pack f[id])
  | repeaterClosing id => asc "RPTC" ++ (asc "L" ++ pack f[id])
  | ping id => asc "RPTP" ++ (asc "ING" ++ pack f[id])
  | pong id => asc "MSTP" ++ (asc "ONG" ++ pack f[id])
  | configuration id columns description slots rest =>
      asc "RPTC" ++ (pack f[id.id] ++ ((columns.before ++ [description.bytes, slots.bytes] ++ columns.after).flatten ++ rest.bytes))
  | options id text => asc "RPTO" ++ (pack f[id] ++ text.bytes)
  | beacon => asc "RPTS"
  | burst x => x.bytes
  | position radio reserved error longitude latitude => asc "DMRG" ++ pack f[radio, reserved, error, longitude, latitude]
  | talkerAlias radio block text => asc "DMRA" ++ (pack f[radio, block] ++ text.bytes)

/-- Packets that must end with the datagram, because octets after them would be taken as their part. -/
def Mm.closed : Mm → Bool
  | configuration .. => true
  | options .. => true
  | burst x => x.quality.closed
  | _ => false

/-- The first four letters. -/
def Mm.command : Mm → String
  | login _ => "RPTL"
  | response .. => "RPTK"
  | accept .. => "RPTA"
  | refuse _ => "MSTN"
  | masterClosing _ => "MSTC"
  | repeaterClosing _ | configuration .. => "RPTC"
  | ping _ => "RPTP"
  | pong _ => "MSTP"
  | options .. => "RPTO"
  | beacon => "RPTS"
  | burst _ => "DMRD"
  | position .. => "DMRG"
  | talkerAlias .. => "DMRA"

/-- The commands in use. -/
def Mm.commands : List String :=
  ["RPTL", "RPTK", "RPTA", "MSTN", "MSTC", "RPTC", "RPTP", "MSTP", "RPTO", "RPTS", "DMRD", "DMRG", "DMRA"]

def Mm.data : Mm → Mmdvm2020.CommandDataUnion
  | login id => .typeRepeaterLoginRequest ⟨id.toNat⟩
  | response id sha256 => .typeRepeaterLoginResponse ⟨id.toNat, sha256.val⟩
  | accept id => .typeMasterRepeaterAck { magic := asc "CK", repeater_id_or_challenge := id.toNat }
  | refuse id => .typeMasterNotAccept { magic := asc "AK", repeater_id := id.toNat }
  | masterClosing id => .typeMasterClosing { magic := asc "L", repeater_id := id.toNat }
  | repeaterClosing id =>
      .typeRepeaterConfigurationOrClosing ⟨.typeRepeaterClosing { magic := asc "L", repeater_id := id.toNat }⟩
  | ping id => .typeRepeaterPing { magic := asc "ING", repeater_id := id.toNat }
  | pong id => .typeMasterPong { magic := asc "ONG", repeater_id := id.toNat }
  | configuration id c description slots rest => .typeRepeaterConfigurationOrClosing ⟨.typeRepeaterConfiguration
      { repeater_id := id.id.toNat, call_sign := c.call_sign.1, rx_freq := c.rx_freq.1, tx_freq := c.tx_freq.1,
        tx_power := c.tx_power.1, color_code := c.color_code.1, latitude := c.latitude.1, longitude := c.longitude.1,
        antenna_height_above_ground := c.height.1, location := c.location.1, description := description.1, slots := slots.1,
        url := c.url.1, software_id := c.software.1, package_id := c.package.1, unparsed_data := rest.1 }⟩
  | options id text => .typeRepeaterOptions { repeater_id := id.toNat, options := text.1 }
  | beacon => .typeRepeaterBeacon {}
  | burst x => .typeDmrData
      { sequence_no := x.sequence.toNat, source_id := x.source.toNat, target_id := x.target.toNat, repeater_id := x.repeater.toNat,
        slot_no := resolveEnum _ x.slot.toNat, call_type := resolveEnum _ x.call.toNat, frame_type := resolveEnum _ x.frame.toNat,
        data_type := x.data_type.toNat, stream_id := x.stream.toNat, dmr_data := x.payload.val,
        bit_error_rate := x.quality.bit_error_rate, rssi := x.quality.rssi }
  | position radio reserved error longitude latitude => .typeRadioPosition
      { radio_id := radio.toNat, reserved := reserved.toNat, position_error := resolveEnum _ error.toNat,
        longitude := longitude.toNat, latitude := latitude.toNat }
  | talkerAlias radio block text => .typeTalkerAlias
      { radio_id := radio.toNat, talker_alias_type := resolveEnum _ block.toNat, talker_alias := text.1 }

def Mm.obj (msg : Mm) : Mmdvm2020 := { command_prefix := msg.command.toList, command_data := some msg.data }

end Dmr.Wire
