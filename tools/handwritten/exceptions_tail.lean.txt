/-- C40: whatever the input, `from_bytes` of every class either returns an object or raises one of the exceptions in its
table entry. -/
theorem C40_exceptions (d : Decoder) (E : List ErrKind) (hd : (d, E) ∈ exceptionTable) (b : Bytes) :
    (∃ x, fromBytes d.read b = .ok x) ∨ ∃ e, fromBytes d.read b = .error e ∧ e.kind ∈ E := by
  have := exceptionTable_sound (d, E) hd b
  rcases h : fromBytes d.read b with e | x
  · exact .inr ⟨e, rfl, this e h⟩
  · exact .inl ⟨x, rfl⟩

example (b : Bytes) : (∃ x, fromBytes Etsi.DmrCsbk.read b = .ok x) ∨ ∃ e, fromBytes Etsi.DmrCsbk.read b = .error e ∧
    e.kind ∈ [ErrKind.EOFError] :=
  C40_exceptions ⟨"Etsi.DmrCsbk", _, Etsi.DmrCsbk.read⟩ _ (List.mem_of_getElem? (i := 7) rfl) b

theorem exceptionTable_documented :
    ∀ E ∈ exceptionTable.map Prod.snd, ∀ k ∈ E,
      k ∈ [ErrKind.EOFError, .ValidationNotEqualError, .UnicodeDecodeError, .ValueError] := by
  set_option maxRecDepth 20000 in decide

/-- C40: in particular it terminates (the model reports a decoder that would never return as `Loop`) and never raises
AttributeError, IndexError or OverflowError: only the four documented exceptions. -/
theorem C40_documented (d : Decoder) (E : List ErrKind) (hd : (d, E) ∈ exceptionTable) (b : Bytes) (e : PyErr)
    (h : fromBytes d.read b = .error e) :
    e.kind ∈ [ErrKind.EOFError, .ValidationNotEqualError, .UnicodeDecodeError, .ValueError] :=
  exceptionTable_documented E (List.mem_map_of_mem hd) _ (exceptionTable_sound (d, E) hd b e h)

example := C40_documented ⟨"Etsi.DmrCsbk", _, Etsi.DmrCsbk.read⟩ _ (List.mem_of_getElem? (i := 7) rfl) [0xBD] .eof (by decide +kernel)

/-- C40: the parts of messages that are decoded with parameters from the enclosing message, likewise. -/
theorem C40_parts (n : Nat) (a : Motorola.AutomaticRegistrationService.MessageHeaderBits)
    (t : Motorola.TextMessageProtocol.MessageHeaderBits) (b : Bytes) :
    Errs [.EOFError, .UnicodeDecodeError, .ValueError] (fromBytes (Hytera.DataTransmitProtocol.DtpRequest.read n) b) ∧
    Errs [.EOFError, .ValueError] (fromBytes (Hytera.DataTransmitProtocol.DataSliceTransmit.read n) b) ∧
    Errs [.EOFError, .UnicodeDecodeError] (fromBytes (Hytera.RadioControlProtocol.RadioIdentificationReply.read n) b) ∧
    Errs [.EOFError] (fromBytes (Motorola.AutomaticRegistrationService.AcknowledgementMessage.read a) b) ∧
    Errs [.EOFError] (fromBytes (Motorola.AutomaticRegistrationService.DeviceRegistrationMessage.read a) b) ∧
    Errs [.EOFError, .UnicodeDecodeError] (fromBytes (Motorola.TextMessageProtocol.TextMessage.read t) b) ∧
    Errs [.EOFError] (fromBytes (Motorola.TextMessageProtocol.TmsServiceAvailability.read t) b) ∧
    Errs [.EOFError] (fromBytes (Motorola.TextMessageProtocol.TmsAcknowledgement.read t) b) := by
  refine ⟨?_, ?_, ?_, ?_, ?_, ?_, ?_, ?_⟩
  · rw [(Hytera.DataTransmitProtocol.DtpRequest.parses n).fromBytes]; exact Errs.map _ (Hytera.DataTransmitProtocol.DtpRequest.spec_errs n b 0)
  · rw [(Hytera.DataTransmitProtocol.DataSliceTransmit.parses n).fromBytes]; exact Errs.map _ (Hytera.DataTransmitProtocol.DataSliceTransmit.spec_errs n b 0)
  · rw [(Hytera.RadioControlProtocol.RadioIdentificationReply.parses n).fromBytes]; exact Errs.map _ (Hytera.RadioControlProtocol.RadioIdentificationReply.spec_errs n b 0)
  · rw [(Motorola.AutomaticRegistrationService.AcknowledgementMessage.parses a).fromBytes]; exact Errs.map _ (Motorola.AutomaticRegistrationService.AcknowledgementMessage.spec_errs a b 0)
  · rw [(Motorola.AutomaticRegistrationService.DeviceRegistrationMessage.parses a).fromBytes]; exact Errs.map _ (Motorola.AutomaticRegistrationService.DeviceRegistrationMessage.spec_errs a b 0)
  · rw [(Motorola.TextMessageProtocol.TextMessage.parses t).fromBytes]; exact Errs.map _ (Motorola.TextMessageProtocol.TextMessage.spec_errs t b 0)
  · rw [(Motorola.TextMessageProtocol.TmsServiceAvailability.parses t).fromBytes]; exact Errs.map _ (Motorola.TextMessageProtocol.TmsServiceAvailability.spec_errs t b 0)
  · rw [(Motorola.TextMessageProtocol.TmsAcknowledgement.parses t).fromBytes]; exact Errs.map _ (Motorola.TextMessageProtocol.TmsAcknowledgement.spec_errs t b 0)

/-- C40: the table entries of the protocols are exact: every exception listed for them is raised for some input. -/
theorem C40_raised :
    -- Hytera application messages, alone and framed
    fromBytes Hytera.RadioRegistrationService.read [] = .error .eof ∧
    fromBytes Hytera.RadioRegistrationService.read [1] = .error (.validation "/seq/0") ∧
    fromBytes Hytera.TextMessageProtocol.read [] = .error .eof ∧
    fromBytes Hytera.TextMessageProtocol.read [0, 0xA1, 0, 13, 0, 0, 0, 7, 10, 0, 0, 80, 10, 0, 0, 90, 0x48] = .error .unicode ∧
    fromBytes Hytera.TextMessageProtocol.read [0, 0xA1, 0, 11, 0, 0, 0, 7, 10, 0, 0, 80, 10, 0, 0, 90] = .error .value ∧
    fromBytes Hytera.HyteraDmrApplicationProtocol.read [] = .error .eof ∧
    fromBytes Hytera.HyteraDmrApplicationProtocol.read [0, 7, 4] = .error (.validation "/seq/4") ∧
    fromBytes Hytera.HyteraDmrApplicationProtocol.read
      [9, 0, 0xA1, 0, 13, 0, 0, 0, 7, 10, 0, 0, 80, 10, 0, 0, 90, 0x48, 0, 3] = .error .unicode ∧
    fromBytes Hytera.HyteraDmrApplicationProtocol.read
      [9, 0, 0xA1, 0, 11, 0, 0, 0, 7, 10, 0, 0, 80, 10, 0, 0, 90, 0, 3] = .error .value ∧
    fromBytes Hytera.IpSiteConnectHeartbeat.read [1] = .error (.validation "/types/keepalive/seq/0") ∧
    -- Homebrew
    fromBytes Homebrew.Homebrew2015.read [] = .error .eof ∧
    fromBytes Homebrew.Homebrew2015.read [0xFF, 0, 0, 0] = .error .unicode ∧
    fromBytes Homebrew.Mmdvm2020.read [] = .error .eof ∧
    fromBytes Homebrew.Mmdvm2020.read [0x80, 0, 0, 0] = .error .unicode ∧
    -- Motorola
    fromBytes Motorola.AutomaticRegistrationService.read [] = .error .eof ∧
    fromBytes Motorola.MotorolaBinaryXml.read [] = .error .eof ∧
    fromBytes Motorola.TextMessageProtocol.read [] = .error .eof ∧
    fromBytes Motorola.TextMessageProtocol.read [0, 4, 0, 0, 0x41] = .error .unicode := by
  refine ⟨by decide, by decide, by decide, by decide, by decide, by decide, by decide, by decide, by decide, ?_, by decide,
    by decide, by decide, by decide, by decide, by decide, by decide, by decide⟩
  exact (Hytera.C21_keepalive 1).2 (by decide)

end Dmr
