import Verif.Spec.Pack
import Verif.Model.Motorola.AutomaticRegistrationService
import Verif.Model.Motorola.TextMessageProtocol
import Verif.Model.Motorola.MotorolaBinaryXml
/-
Specification of a Motorola radio or server: what it wants to say (the constructors below), what it sends (`bytes`), and the object
that the other side should get (`obj`). Nothing here mentions readers or offsets.
-/

set_option autoImplicit false

namespace Dmr.Wire

open Spec Motorola

/-- Up to 255 octets. -/
structure Short where
  val : Bytes
  len : val.length < 256

/-- They are sent after their number. -/
def Short.bytes (x : Short) : Bytes := pack f[BitVec.ofNat 8 x.val.length] ++ x.val

/-- Without octets there is no attribute. -/
def Short.attribute (x : Short) : Option Bytes := if x.val.length = 0 then none else some x.val

/-! ### Automatic registration service -/

/-- The second header octet of a registration. -/
structure Registration where
  extension : Bool
  event : BitVec 2
  encoding : BitVec 5

/-- What an ARS message can say. -/
inductive Ars
  | registration (acknowledge priority control : Bool) (header : Option Registration) (device user password : Short)
  | deregistration (extension acknowledge priority control : Bool)
  | query (extension acknowledge priority control : Bool)
  | acknowledgement (acknowledge priority control : Bool)
  | accepted (priority control extension : Bool) (refresh_time : BitVec 7)
  | refused (priority control extension : Bool) (reason : BitVec 7)
  | other (extension acknowledge priority control : Bool) (type : BitVec 4) (h : type ∉ [0#4, 1#4, 4#4, 15#4])

/-- The message after its size (low octet first). -/
def Ars.bytes (size : BitVec 16) : Ars → Bytes
  | registration ack priority control none device user password =>
      pack f[le16 size, false, ack, priority, control, 0#4] ++ (device.bytes ++ (user.bytes ++ password.bytes))
  | registration ack priority control (some h) device user password =>
      pack f[le16 size, true, ack, priority, control, 0#4, h.extension, h.event, h.encoding] ++
        (device.bytes ++ (user.bytes ++ password.bytes))
  | deregistration extension ack priority control => pack f[le16 size, extension, ack, priority, control, 1#4]
  | query extension ack priority control => pack f[le16 size, extension, ack, priority, control, 4#4]
  | acknowledgement ack priority control => pack f[le16 size, false, ack, priority, control, 15#4]
  | accepted priority control extension refresh_time =>
      pack f[le16 size, true, true, priority, control, 15#4, extension, refresh_time]
  | refused priority control extension reason =>
      pack f[le16 size, true, false, priority, control, 15#4, extension, reason]
  | other extension ack priority control type _ => pack f[le16 size, extension, ack, priority, control, type]

def Ars.header : Ars → AutomaticRegistrationService.MessageHeaderBits
  | registration ack priority control header .. => ⟨header.isSome, ack, priority, control, 0⟩
  | deregistration extension ack priority control => ⟨extension, ack, priority, control, 1⟩
  | query extension ack priority control => ⟨extension, ack, priority, control, 4⟩
  | acknowledgement ack priority control => ⟨false, ack, priority, control, 15⟩
  | accepted priority control .. => ⟨true, true, priority, control, 15⟩
  | refused priority control .. => ⟨true, false, priority, control, 15⟩
  | other extension ack priority control type _ => ⟨extension, ack, priority, control, type.toNat⟩

def Ars.content : Ars → Option AutomaticRegistrationService.PduContentUnion
  | registration _ _ _ header device user password => some (.deviceRegistrationMessage
      { device_registration_message_header := header.map fun h => ⟨h.extension, resolveEnum _ h.event.toNat, h.encoding.toNat⟩
        len_device_identifier := device.val.length, device_identifier := device.attribute
        len_user_identifier := user.val.length, user_identifier := user.attribute
        len_password := password.val.length, password := password.attribute })
  | deregistration .. => some (.deviceDeregistrationMessage {})
  | query .. => some (.arsQueryMessage {})
  | acknowledgement .. => some (.acknowledgementMessage ⟨none, none⟩)
  | accepted _ _ extension refresh_time => some (.acknowledgementMessage ⟨some ⟨extension, refresh_time.toNat⟩, none⟩)
  | refused _ _ extension reason => some (.acknowledgementMessage ⟨none, some ⟨extension, resolveEnum _ reason.toNat⟩⟩)
  | other .. => none

/-- Octets that follow the message are kept as they are. -/
def Ars.obj (size : BitVec 16) (rest : Bytes) (msg : Ars) : AutomaticRegistrationService where
  message_size := size.toNat
  message_header := msg.header
  pdu_content := msg.content
  unparsed_data := rest

/-! ### Text message service -/

/-- What the two header octets of a text message say. -/
inductive TextHeader
  | short (reserved : BitVec 2) (sequence_low : BitVec 5) (encoding : BitVec 5) (unused : BitVec 3)
  | long (reserved : BitVec 2) (sequence_low : BitVec 5) (extension : Bool) (sequence_high : BitVec 2) (encoding : BitVec 5)

def TextHeader.bytes : TextHeader → Bytes
  | short reserved low encoding unused => pack f[false, reserved, low, encoding, unused]
  | long reserved low extension high encoding => pack f[true, reserved, low, extension, high, encoding]

def TextHeader.obj : TextHeader → TextMessageProtocol.TextMessageHeaderSequenceAndEncoding
  | short reserved low encoding _ => ⟨false, reserved.toNat, low.toNat, none, none, encoding.toNat⟩
  | long reserved low extension high encoding =>
      ⟨true, reserved.toNat, low.toNat, some extension, some high.toNat, encoding.toNat⟩

/-- What the one or two header octets of an acknowledgement say. -/
inductive AckHeader
  | short (reserved : BitVec 2) (sequence_low : BitVec 5)
  | long (reserved : BitVec 2) (sequence_low : BitVec 5) (extension : Bool) (sequence_high : BitVec 2) (reserved_high : BitVec 5)

def AckHeader.bytes : AckHeader → Bytes
  | short reserved low => pack f[false, reserved, low]
  | long reserved low extension high reserved_high => pack f[true, reserved, low, extension, high, reserved_high]

def AckHeader.obj : AckHeader → TextMessageProtocol.TmsAcknowledgementHeaderSequenceNumber
  | short reserved low => ⟨false, reserved.toNat, low.toNat, none, none, none⟩
  | long reserved low extension high reserved_high =>
      ⟨true, reserved.toNat, low.toNat, some extension, some high.toNat, some reserved_high.toNat⟩

/-- The header octet of an announcement. -/
structure Availability where
  extension : Bool
  reserved : BitVec 4
  device : BitVec 3

/-- What a message of the text message service can say. -/
inductive Tms
  | text (acknowledge reserved : Bool) (header : Option TextHeader) (text : List Char)
  | acknowledgement (reserved : Bool) (header : Option AckHeader)
  | availability (reserved : Bool) (header : Option Availability)
  | other (extension acknowledge reserved control : Bool) (type : BitVec 4)
      (h : (control, type) ≠ (false, 0#4) ∧ (acknowledge, control, type) ≠ (false, true, 15#4) ∧
        (acknowledge, control, type) ≠ (true, true, 0#4))

def Tms.flags : Tms → List Fld
  | text acknowledge reserved header _ => f[header.isSome, acknowledge, reserved, false, 0#4]
  | acknowledgement reserved header => f[header.isSome, false, reserved, true, 15#4]
  | availability reserved header => f[header.isSome, true, reserved, true, 0#4]
  | other extension acknowledge reserved control type _ => f[extension, acknowledge, reserved, control, type]

/-- What follows the address. -/
def Tms.body : Tms → Bytes
  | text _ _ header s => header.elim [] TextHeader.bytes ++ encUtf16le s
  | acknowledgement _ header => header.elim [] AckHeader.bytes
  | availability _ header => header.elim [] fun h => pack f[h.extension, h.reserved, h.device]
  | other .. => []

def Tms.bytes (size : BitVec 16) (address : Short) (msg : Tms) : Bytes :=
  pack (ofBitVec size :: msg.flags) ++ (address.bytes ++ msg.body)

/-- A text ends with the datagram. -/
def Tms.closed : Tms → Bool
  | text .. => true
  | _ => false

def Tms.header : Tms → TextMessageProtocol.MessageHeaderBits
  | text acknowledge reserved header _ => ⟨header.isSome, acknowledge, reserved, false, 0⟩
  | acknowledgement reserved header => ⟨header.isSome, false, reserved, true, 15⟩
  | availability reserved header => ⟨header.isSome, true, reserved, true, 0⟩
  | other extension acknowledge reserved control type _ => ⟨extension, acknowledge, reserved, control, type.toNat⟩

def Tms.content : Tms → Option TextMessageProtocol.PduContentUnion
  | text _ _ header s => some (.textMessage ⟨header.map TextHeader.obj, s⟩)
  | acknowledgement _ header => some (.tmsAcknowledgement ⟨header.map AckHeader.obj⟩)
  | availability _ header => some (.tmsServiceAvailability
      ⟨header.map fun h => ⟨h.extension, h.reserved.toNat, resolveEnum _ h.device.toNat⟩⟩)
  | other .. => none

/-- Octets that follow the message are kept as they are. -/
def Tms.obj (size : BitVec 16) (address : Short) (rest : Bytes) (msg : Tms) : TextMessageProtocol where
  message_size := size.toNat
  message_header := msg.header
  len_address := address.val.length
  address := address.attribute
  pdu_content := msg.content
  unparsed_data := rest

/-! ### Binary XML -/

/-- A number in groups of seven bits: all octets but the last have the top bit set. -/
structure VarNum where
  more : List (BitVec 7)
  last : BitVec 7

def VarNum.bytes (x : VarNum) : Bytes := x.more.flatMap (fun (g : BitVec 7) => pack f[true, g]) ++ pack f[false, x.last]

/-- The groups with their top bits. -/
def VarNum.payload (x : VarNum) : List Nat := x.more.map (fun g => 128 + g.toNat) ++ [x.last.toNat]

/-- The element of an immediate request. -/
inductive Element
  | value (octets : Short)
  | octet (x : BitVec 8)
  | reference (offset : VarNum)
  | other (token : BitVec 8) (h : token ∉ [0x22#8, 0x23#8, 0x24#8])

def Element.bytes : Element → Bytes
  | value x => pack f[0x22#8] ++ x.bytes
  | octet x => pack f[0x23#8, x]
  | reference n => pack f[0x24#8] ++ n.bytes
  | other token _ => pack f[token]

def Element.obj : Element → MotorolaBinaryXml.LrrpElement
  | value x => ⟨.known .request_id_22_opaque, some (.opaqueElementValue ⟨x.val.length, x.val⟩)⟩
  | octet x => ⟨.known .request_id_23_opaque_1byte, some (.opaque1byteValue ⟨pack f[x]⟩)⟩
  | reference n => ⟨.known .request_id_24_cdt_reference, some (.constantDataTableReference ⟨⟨n.payload⟩⟩)⟩
  | other token _ => ⟨.raw token.toNat, none⟩

/-- A document. -/
inductive Document
  | immediateRequest (length : VarNum) (element : Element)
  | other (id : BitVec 8) (h : id ≠ 5#8) (length : VarNum)

def Document.bytes : Document → Bytes
  | immediateRequest length element => pack f[5#8] ++ (length.bytes ++ element.bytes)
  | other id _ length => pack f[id] ++ length.bytes

def Document.obj : Document → MotorolaBinaryXml.MbxmlDocument
  | immediateRequest length element =>
      ⟨.known .lrrp_immediate_request_ncdt, ⟨length.payload⟩, some (.lrrpImmediateRequestNcdt ⟨element.obj⟩)⟩
  | other id _ length => ⟨resolveEnum _ id.toNat, ⟨length.payload⟩, none⟩

end Dmr.Wire
