import Verif.Props.Exceptions
/-
C40: the table of exceptions is exact. For every class and every exception listed for it there are bytes for which it is raised.
-/

set_option autoImplicit false

namespace Dmr

/-- Byte strings that make a class raise its exceptions; the empty one will do for most. -/
def raising (name : String) : List Bytes :=
  let ones := List.replicate 48 0xFF
  match name with
  | "Homebrew.Homebrew2015" => [[], ones, [0x4D, 0x53, 0x54, 0x4E, 0, 0]]
  | "Homebrew.Mmdvm2020" => [[], ones, [0x4D, 0x53, 0x54, 0x4E, 0, 0]]
  | "Hytera.DataTransmitProtocol" => [[], [0xA0, 1, 0, 11, 10, 0, 0, 80, 10, 0, 0, 90, 0, 4, 0x41], [0xA0, 1, 0, 9, 10, 0, 0, 80, 10, 0, 0, 90, 0, 4]]
  | "Hytera.HyteraDmrApplicationProtocol" => [[], [0, 7, 4], [9, 0, 0xA1, 0, 13, 0, 0, 0, 7, 10, 0, 0, 80, 10, 0, 0, 90, 0x48, 0, 3],
      [9, 0, 0xA1, 0, 11, 0, 0, 0, 7, 10, 0, 0, 80, 10, 0, 0, 90, 0, 3]]
  | "Hytera.HyteraRadioNetworkProtocol" => [[], ones,
      [0x7E, 4, 0, 0, 0x20, 0x10, 0, 0, 0, 50, 0, 0, 9, 0, 0xA1, 0, 13, 0, 0, 0, 7, 10, 0, 0, 80, 10, 0, 0, 90, 0x48, 0, 3],
      [0x7E, 4, 0, 0, 0x20, 0x10, 0, 0, 0, 50, 0, 0, 9, 0, 0xA1, 0, 11, 0, 0, 0, 7, 10, 0, 0, 80, 10, 0, 0, 90, 0, 3]]
  | "Hytera.HyteraSimpleTransportReliabilityProtocol" => [[], ones,
      [0x32, 0x42, 0, 0, 0, 1, 9, 0, 0xA1, 0, 13, 0, 0, 0, 7, 10, 0, 0, 80, 10, 0, 0, 90, 0x48, 0, 3],
      [0x32, 0x42, 0, 0, 0, 1, 9, 0, 0xA1, 0, 11, 0, 0, 0, 7, 10, 0, 0, 80, 10, 0, 0, 90, 0, 3]]
  | "Hytera.IpSiteConnectHeartbeat" => [[1]]
  | "Hytera.LocationProtocol" => [[], [0xC0, 1, 0, 44] ++ ones]
  | "Hytera.LocationProtocol.ConditionQuickGpsRequest" => [[], [0, 0, 0, 0, 0, 0, 0, 0, 1] ++ ones]
  | "Hytera.RadioControlProtocol" => [[], [0xD4, 0x82, 0xC6, 0] ++ List.replicate 208 0xDC]
  | "Hytera.RealTimeTransportProtocol" => [[], [0], [0xA0, 0, 0, 0, 0, 0, 0, 0, 0, 0, 0, 9]]
  | "Hytera.RealTimeTransportProtocol.FixedHeader" => [[], [0]]
  | "Hytera.TextMessageProtocol" => [[], [0, 0xA1, 0, 13, 0, 0, 0, 7, 10, 0, 0, 80, 10, 0, 0, 90, 0x48],
      [0, 0xA1, 0, 11, 0, 0, 0, 7, 10, 0, 0, 80, 10, 0, 0, 90]]
  | "Hytera.TelemetryProtocol" => [[], [0xA0, 0x82, 0, 15, 10, 0, 0, 80, 10, 0, 0, 90, 0, 0, 1, 0, 0, 1, 0x41]]
  | "Hytera.TelemetryProtocol.ExtendedStatusReport" => [[], [10, 0, 0, 80, 10, 0, 0, 90, 0, 0, 1, 0, 0, 1, 0x41]]
  | "Hytera.TelemetryProtocol.VioExtendedStatus" => [[], [0, 0, 1, 0x41]]
  | "Motorola.TextMessageProtocol" => [[], [0, 4, 0, 0, 0x41]]
  | _ => [[], ones]

def Decoder.raises (d : Decoder) (b : Bytes) : Option ErrKind :=
  match fromBytes d.read b with
  | .ok _ => none
  | .error e => some e.kind

theorem Decoder.of_raises {d : Decoder} {b : Bytes} {k : ErrKind} (h : d.raises b = some k) :
    ∃ e, fromBytes d.read b = .error e ∧ e.kind = k := by
  unfold Decoder.raises at h
  split at h
  · cases h
  · next e he => exact ⟨e, he, by injection h⟩

theorem exceptionTable_raised :
    (exceptionTable.all fun p => p.2.all fun k => (raising p.1.name).any fun b => p.1.raises b == some k) = true := by
  decide +kernel

/-- C40: the table is exact. A class raises an exception for some bytes if and only if the table lists that exception for
the class. -/
theorem C40_exact (d : Decoder) (E : List ErrKind) (hd : (d, E) ∈ exceptionTable) (k : ErrKind) :
    (∃ b e, fromBytes d.read b = .error e ∧ e.kind = k) ↔ k ∈ E := by
  constructor
  · rintro ⟨b, e, he, rfl⟩
    exact exceptionTable_sound (d, E) hd b e he
  · intro hk
    have h := List.all_eq_true.mp (List.all_eq_true.mp exceptionTable_raised (d, E) hd) k hk
    obtain ⟨b, _, hb⟩ := List.any_eq_true.mp h
    obtain ⟨e, he⟩ := Decoder.of_raises (d := d) (b := b) (k := k) (by simpa using hb)
    exact ⟨b, e, he⟩

example : (∃ b e, fromBytes Hytera.TelemetryProtocol.read b = .error e ∧ e.kind = .UnicodeDecodeError) ∧
    ¬ ∃ b e, fromBytes Hytera.TelemetryProtocol.read b = .error e ∧ e.kind = .ValueError :=
  have h := C40_exact ⟨"Hytera.TelemetryProtocol", _, Hytera.TelemetryProtocol.read⟩ _ (List.mem_of_getElem? (i := 126) rfl)
  ⟨(h _).mpr (by decide), fun c => absurd ((h _).mp c) (by decide)⟩

/-- C40: the parts of messages that are decoded with parameters from the enclosing message can raise every exception that
`C40_parts` allows them. -/
theorem C40_parts_raised :
    (∃ n b, fromBytes (Hytera.DataTransmitProtocol.DtpRequest.read n) b = .error .eof) ∧
    (∃ n b, fromBytes (Hytera.DataTransmitProtocol.DtpRequest.read n) b = .error .unicode) ∧
    (∃ n b, fromBytes (Hytera.DataTransmitProtocol.DtpRequest.read n) b = .error .value) ∧
    (∃ n b, fromBytes (Hytera.DataTransmitProtocol.DataSliceTransmit.read n) b = .error .eof) ∧
    (∃ n b, fromBytes (Hytera.DataTransmitProtocol.DataSliceTransmit.read n) b = .error .value) ∧
    (∃ n b, fromBytes (Hytera.RadioControlProtocol.RadioIdentificationReply.read n) b = .error .eof) ∧
    (∃ n b, fromBytes (Hytera.RadioControlProtocol.RadioIdentificationReply.read n) b = .error .unicode) ∧
    (∃ a b, fromBytes (Motorola.AutomaticRegistrationService.AcknowledgementMessage.read a) b = .error .eof) ∧
    (∃ a b, fromBytes (Motorola.AutomaticRegistrationService.DeviceRegistrationMessage.read a) b = .error .eof) ∧
    (∃ t b, fromBytes (Motorola.TextMessageProtocol.TextMessage.read t) b = .error .eof) ∧
    (∃ t b, fromBytes (Motorola.TextMessageProtocol.TextMessage.read t) b = .error .unicode) ∧
    (∃ t b, fromBytes (Motorola.TextMessageProtocol.TmsServiceAvailability.read t) b = .error .eof) ∧
    (∃ t b, fromBytes (Motorola.TextMessageProtocol.TmsAcknowledgement.read t) b = .error .eof) := by
  refine ⟨⟨10, [], by decide +kernel⟩, ⟨11, [10, 0, 0, 80, 10, 0, 0, 90, 0, 4, 0x41], by decide +kernel⟩,
    ⟨9, [10, 0, 0, 80, 10, 0, 0, 90, 0, 4], by decide +kernel⟩, ⟨10, [], by decide +kernel⟩,
    ⟨9, [10, 0, 0, 80, 10, 0, 0, 90, 0, 4], by decide +kernel⟩, ⟨6, [], by decide +kernel⟩,
    ⟨198, List.replicate 198 0xDC, by decide +kernel⟩, ⟨⟨true, true, true, true, 15⟩, [], by decide +kernel⟩, 
    ⟨⟨true, true, true, true, 15⟩, [], by decide +kernel⟩, ⟨⟨true, true, true, true, 15⟩, [], by decide +kernel⟩,
    ⟨⟨false, true, true, true, 15⟩, [0x41], by decide +kernel⟩, ⟨⟨true, true, true, true, 15⟩, [], by decide +kernel⟩,
    ⟨⟨true, true, true, true, 15⟩, [], by decide +kernel⟩⟩

end Dmr
