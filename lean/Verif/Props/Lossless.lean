import Verif.LosslessList
import Verif.Props.EtsiMessages2
/-
Property C43 (no information is lost): objects decoded from different messages are different.
-/

namespace Dmr

/-- C43. Two byte strings (in any streams, at any places) that decode to equal objects of one of the 155 classes of
`losslessDecoders` (Verif/LosslessList.lean) are the same bytes: both decoders consume the same number `l` of bytes, and these
bytes are equal. So different PDUs never decode to equal objects, whatever follows them. -/
theorem C43_equal_objects (d : Decoder) (hd : d ∈ losslessDecoders) (b b' : Bytes) (q q' n n' : Nat) (x : d.Obj)
    (hq : q ≤ b.length) (hq' : q' ≤ b'.length) (h : parseAt d.read b q = .ok (x, n)) (h' : parseAt d.read b' q' = .ok (x, n')) :
    ∃ l, n = q + l ∧ n' = q' + l ∧ n ≤ b.length ∧ n' ≤ b'.length ∧ slice b q l = slice b' q' l :=
  (LosslessOn.of (P := fun _ => True) (losslessDecoders_lossless d hd)).consumed_at trivial hq hq' h h'

/-- A CSBK preamble, with different bytes before and after it. -/
example : ∃ l, 10 = 0 + l ∧ 11 = 1 + l ∧ 10 ≤ 14 ∧ 11 ≤ 13 ∧
    slice [0xBD, 0, 0xC0, 5, 0, 0, 1, 0, 0, 2, 0xAB, 0xCD, 1, 2] 0 l = slice [9, 0xBD, 0, 0xC0, 5, 0, 0, 1, 0, 0, 2, 0xAB, 0xCD] 1 l :=
  C43_equal_objects ⟨"Etsi.DmrCsbk", _, Etsi.DmrCsbk.read⟩ (List.mem_of_getElem? (i := 7) rfl)
    [0xBD, 0, 0xC0, 5, 0, 0, 1, 0, 0, 2, 0xAB, 0xCD, 1, 2] [9, 0xBD, 0, 0xC0, 5, 0, 0, 1, 0, 0, 2, 0xAB, 0xCD] 0 1 10 11
    ⟨true, false, .known .preamble, 0, some (.preambleData ⟨.known .data_content_follows_preambles,
        .known .target_address_is_a_group, 0, 5, 1, 2⟩)⟩ (by decide) (by decide) (by decide +kernel) (by decide +kernel)

/-- C43. The consumed bytes can be reconstructed from the decoded object: for each of these classes there is a function from
objects to byte strings that gives, for whatever `from_bytes` accepts, exactly the bytes it has consumed. -/
theorem C43_reconstruct (d : Decoder) (hd : d ∈ losslessDecoders) : ∃ encode : d.Obj → Bytes,
    ∀ (b : Bytes) (x : d.Obj) (n : Nat), parseAt d.read b 0 = .ok (x, n) → encode x = b.take n := by
  classical
  refine ⟨fun x => if h : ∃ (b : Bytes) (n : Nat), parseAt d.read b 0 = .ok (x, n) then h.choose.take h.choose_spec.choose else [],
    fun b x n h => ?_⟩
  have hex : ∃ (b : Bytes) (n : Nat), parseAt d.read b 0 = .ok (x, n) := ⟨b, n, h⟩
  simp only [dif_pos hex]
  obtain ⟨l, h1, h2, -, -, h3⟩ := C43_equal_objects d hd _ b 0 0 _ n x (Nat.zero_le _) (Nat.zero_le _) hex.choose_spec.choose_spec h
  rw [h1, h2]
  simpa [slice] using h3

example := C43_reconstruct ⟨"Etsi.DmrCsbk", _, Etsi.DmrCsbk.read⟩ (List.mem_of_getElem? (i := 7) rfl)

/-- C43. In terms of `from_bytes` alone: two accepted byte strings that decode to equal objects have a common beginning,
and this beginning is what has been consumed of each of them. -/
theorem C43_from_bytes (d : Decoder) (hd : d ∈ losslessDecoders) (b b' : Bytes) (x : d.Obj) (h : fromBytes d.read b = .ok x)
    (h' : fromBytes d.read b' = .ok x) : ∃ n, n ≤ b.length ∧ n ≤ b'.length ∧ parseAt d.read b 0 = .ok (x, n) ∧
      parseAt d.read b' 0 = .ok (x, n) ∧ b.take n = b'.take n := by
  rw [fromBytes_parseAt] at h h'
  rcases e : parseAt d.read b 0 with _ | ⟨y, n⟩
  · rw [e] at h; cases h
  rcases e' : parseAt d.read b' 0 with _ | ⟨y', n'⟩
  · rw [e'] at h'; cases h'
  rw [e] at h; rw [e'] at h'
  injection h with h
  injection h' with h'
  dsimp only at h h'
  subst h h'
  obtain ⟨l, rfl, rfl, h1, h2, h3⟩ := C43_equal_objects d hd b b' 0 0 n n' _ (Nat.zero_le _) (Nat.zero_le _) e e'
  exact ⟨0 + l, h1, h2, rfl, rfl, by simpa [slice] using h3⟩

example := C43_from_bytes ⟨"Etsi.DmrCsbk", _, Etsi.DmrCsbk.read⟩ (List.mem_of_getElem? (i := 7) rfl)
    [0xBD, 0, 0xC0, 5, 0, 0, 1, 0, 0, 2, 0xAB, 0xCD, 1, 2] [0xBD, 0, 0xC0, 5, 0, 0, 1, 0, 0, 2, 0xAB, 0xCD]
    ⟨true, false, .known .preamble, 0, some (.preambleData ⟨.known .data_content_follows_preambles,
        .known .target_address_is_a_group, 0, 5, 1, 2⟩)⟩ (by decide +kernel) (by decide +kernel)

/-- A class of the list (the network protocol frame with everything it can contain). -/
theorem hrnp_lossless : (⟨"Hytera.HyteraRadioNetworkProtocol", _, Hytera.HyteraRadioNetworkProtocol.read⟩ : Decoder) ∈ losslessDecoders :=
  List.mem_of_getElem? (i := 117) rfl

/-- A frame that is accepted, with a byte behind it; so `C43_equal_objects` and `C43_from_bytes` apply to it. -/
example : ((parseAt Hytera.HyteraRadioNetworkProtocol.read [0x7e, 4, 0, 0xfe, 0x20, 0x10, 0, 0, 0, 12, 0x60, 0xe1, 0xaa] 0).map Prod.snd).toOption
    = some 12 := by decide +kernel

/-- The classes of `sequentialDecoders` are all lossless but one, which is treated below. -/
theorem C43_scope : ∀ s ∈ sequentialDecoders.map Decoder.name,
    s ∈ losslessDecoders.map Decoder.name ∨ s = "Motorola.TextMessageProtocol.TextMessageHeaderSequenceAndEncoding" := by
  decide +kernel

/-- C43. Full link control without the 5 bit checksum loses nothing either. -/
theorem C43_full_link_control (b b' : Bytes) (n n' : Nat) (x : Etsi.FullLinkControl) (hx : x.cs5_checksum = none)
    (h : parseAt Etsi.FullLinkControl.read b 0 = .ok (x, n)) (h' : parseAt Etsi.FullLinkControl.read b' 0 = .ok (x, n')) :
    n = n' ∧ n ≤ b.length ∧ n ≤ b'.length ∧ b.take n = b'.take n' :=
  Etsi.FullLinkControl.read_lossless_on_none.consumed hx h h'

/-- A group call in 12 bytes, and the same with another byte after it. -/
example : ∃ x, x.cs5_checksum = none ∧ parseAt Etsi.FullLinkControl.read [0, 0, 0, 0, 0, 1, 0, 0, 2, 1, 2, 3] 0 = .ok (x, 12) := by
  refine ⟨_, ?_, rfl⟩
  decide +kernel

/-- C43. With the 5 bit checksum the messages are equal but for the last three bits of the last byte consumed. -/
theorem C43_full_link_control_cs5 (b b' : Bytes) (n n' : Nat) (x : Etsi.FullLinkControl) (hx : x.cs5_checksum ≠ none)
    (h : parseAt Etsi.FullLinkControl.read b 0 = .ok (x, n)) (h' : parseAt Etsi.FullLinkControl.read b' 0 = .ok (x, n')) :
    n = n' ∧ b.take (n - 1) = b'.take (n - 1) ∧ u8 b (n - 1) / 8 = u8 b' (n - 1) / 8 := by
  obtain ⟨rfl, g, g', m, rfl, h1, h2⟩ := Etsi.FullLinkControl.read_lossless_on_some.consumed_bits (by decide) hx h h'
  rw [Etsi.top5 b m (by omega), Etsi.top5 b' m (by omega)] at h2
  exact ⟨rfl, h1, h2⟩

/-- A group call in 10 bytes: the last byte is 5 bits of checksum and 3 bits that are not looked at. -/
example : ∃ x, x.cs5_checksum ≠ none ∧ parseAt Etsi.FullLinkControl.read [0, 0, 0, 0, 0, 1, 0, 0, 2, 0xf8] 0 = .ok (x, 10) ∧
    parseAt Etsi.FullLinkControl.read [0, 0, 0, 0, 0, 1, 0, 0, 2, 0xff] 0 = .ok (x, 10) := by
  refine ⟨_, ?_, rfl, rfl⟩
  decide +kernel

theorem same_object {α : Type} {x y : Except PyErr α} (h : x.toOption.isSome ∧ x.toOption = y.toOption) :
    ∃ z, x = .ok z ∧ y = .ok z := by
  cases x with
  | error e => cases h.1
  | ok z =>
    cases y with
    | error e => cases h.2
    | ok w => exact ⟨z, rfl, congrArg Except.ok (Option.some.inj h.2).symm⟩

/-- These three bits are really lost: two different ten byte messages with the same object. -/
theorem C43_full_link_control_lost : ∃ b b' : Bytes, b.length = 10 ∧ b'.length = 10 ∧ b ≠ b' ∧
    ∃ x, fromBytes Etsi.FullLinkControl.read b = .ok x ∧ fromBytes Etsi.FullLinkControl.read b' = .ok x := by
  refine ⟨[0, 0, 0, 0, 0, 1, 0, 0, 2, 0], [0, 0, 0, 0, 0, 1, 0, 0, 2, 7], rfl, rfl, by decide, ?_⟩
  exact same_object (by decide +kernel)

/-- A message of ten bytes has the 5 bit checksum, one of twelve the checksum of three bytes. -/
example : ((fromBytes Etsi.FullLinkControl.read [0, 0, 0, 0, 0, 1, 0, 0, 2, 0xf8]).map (·.cs5_checksum)).toOption = some (some 31) ∧
    ((fromBytes Etsi.FullLinkControl.read [0, 0, 0, 0, 0, 1, 0, 0, 2, 1, 2, 3]).map (·.cs5_checksum)).toOption = some none := by
  decide +kernel

/-- C43. A Motorola text message loses nothing, if its sequence and encoding header (if any) has the encoding part. -/
theorem C43_motorola_text (b b' : Bytes) (n n' : Nat) (x : Motorola.TextMessageProtocol)
    (hx : ∀ t h, x.pdu_content = some (.textMessage t) → t.text_message_header_sequence_and_encoding = some h →
      h.has_encoding_header = true)
    (h : parseAt Motorola.TextMessageProtocol.read b 0 = .ok (x, n)) (h' : parseAt Motorola.TextMessageProtocol.read b' 0 = .ok (x, n')) :
    n = n' ∧ n ≤ b.length ∧ n ≤ b'.length ∧ b.take n = b'.take n' :=
  Motorola.TextMessageProtocol.read_lossless_on.consumed (fun t ht h hh => hx t h ht hh) h h'

example : ∃ x, parseAt Motorola.TextMessageProtocol.read [0, 5, 0x80, 0, 0x81, 0x08, 0x41, 0] 0 = .ok (x, 8) ∧
    ∀ t h, x.pdu_content = some (.textMessage t) → t.text_message_header_sequence_and_encoding = some h →
      h.has_encoding_header = true := by
  refine ⟨_, rfl, fun t h h1 h2 => ?_⟩
  cases h1
  cases h2
  rfl

/-- A message with the encoding part. -/
example : ((fromBytes Motorola.TextMessageProtocol.read [0, 5, 0x80, 0, 0x81, 0x08, 0x41, 0]).map (·.pdu_content)).toOption =
    some (some (.textMessage ⟨some ⟨true, 0, 1, some false, some 0, 8⟩, "A".toList⟩)) := by
  decide +kernel

/-- Without the encoding part three bits are lost: two different messages with the same object. -/
theorem C43_motorola_text_lost : ∃ b b' : Bytes, b.length = b'.length ∧ b ≠ b' ∧
    ∃ x, fromBytes Motorola.TextMessageProtocol.read b = .ok x ∧ fromBytes Motorola.TextMessageProtocol.read b' = .ok x := by
  refine ⟨[0, 5, 0x80, 0, 0x01, 0x08], [0, 5, 0x80, 0, 0x01, 0x0f], rfl, by decide, ?_⟩
  exact same_object (by decide +kernel)

end Dmr
