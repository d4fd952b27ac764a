import Verif.Props.HyteraMessages
/-
C10, C11, C12, C13, C14: text messages, data transmit, delivery states, registration, radio control.
-/

namespace Dmr.Hytera

open Spec

theorem of_sizedAt_ok {b : Bytes} {o : Nat} {n : Int} {k : Bytes → Except PyErr γ} {y : γ}
    (h : sizedAt b o n k = .ok y) : 0 ≤ n ∧ o + n.toNat ≤ b.length ∧ k (slice b o n.toNat) = .ok y := by
  unfold sizedAt at h
  split at h
  · cases h
  · split at h
    · exact ⟨by omega, ‹_›, h⟩
    · cases h
theorem of_decoded_ok {t : Option PyStr} {k : PyStr → Except PyErr γ} {y : γ} (h : decoded t k = .ok y) :
    ∃ s, t = some s ∧ k s = .ok y := by
  unfold decoded at h
  split at h
  · exact ⟨_, rfl, h⟩
  · cases h

/-! ### C10 -/

/-- C10: a Hytera text message is its documented layout. -/
theorem C10_layout (b : Bytes) :
    fromBytes TextMessageProtocol.read b = (TextMessageProtocol.spec b 0).map Prod.fst :=
  TextMessageProtocol.parses.fromBytes b

/-- Offset of the request id: 4, or 6 if the option bit (second bit of the first byte) is set. -/
def textBase (b : Bytes) : Nat := if bitsAt b 1 1 = 1 then 6 else 4
/-- Bytes of the option length field and the option text. -/
def textOption (b : Bytes) : Nat := if bitsAt b 1 1 = 1 then u16be b 4 + 2 else 0

/-- The option length as `TextMessageProtocol.restSpec` takes it. -/
def textOptLen (b : Bytes) : Option Nat := if bitsAt b 1 1 = 1 then some (u16be b 4) else none

theorem text_spec (b : Bytes) :
    TextMessageProtocol.spec b 0 = upTo b (textBase b) (TextMessageProtocol.restSpec (textOptLen b) b 0 (textBase b)) := by
  unfold TextMessageProtocol.spec textBase textOptLen
  simp only [Nat.mul_zero, Nat.zero_add]
  by_cases h : bitsAt b 1 1 = 1
  · simp only [h, if_true]
    unfold upTo
    by_cases h6 : 6 ≤ b.length
    · rw [if_pos (by omega), if_pos h6]
    · rw [if_neg h6]; split <;> rfl
  · simp only [h, if_false]

theorem optionSize_textOptLen (b : Bytes) : TextMessageProtocol.optionSize (textOptLen b) = textOption b := by
  unfold textOptLen textOption
  split <;> rfl

/-- The option text of a decoded message. -/
theorem of_optionSpec_ok {b : Bytes} {p e : Nat} {t : Option PyStr}
    (h : TextMessageProtocol.optionSpec (textOptLen b) b p = .ok (t, e)) :
    (bitsAt b 1 1 = 1 → ∃ s, t = some s ∧ encUtf16le s = slice b p (u16be b 4) ∧ p + u16be b 4 ≤ b.length) ∧
    (bitsAt b 1 1 ≠ 1 → t = none) := by
  unfold textOptLen at h
  split at h
  · obtain ⟨hl, s, hs, h⟩ := of_textAt_ok h
    cases h
    exact ⟨fun _ => ⟨s, rfl, (decodeUtf16le_iff _ _).mp hs, hl⟩, fun h => absurd ‹_› h⟩
  · cases h
    exact ⟨fun h => absurd h ‹_›, fun _ => rfl⟩

/-- C10: in a decoded private (A1) or group (B1) message the text is exactly the `message_length - 12` bytes (minus
those of the option) of UTF-16LE after the addresses, and the option text, if flagged, follows it. -/
theorem C10_text (b : Bytes) (x : TextMessageProtocol) (h : fromBytes TextMessageProtocol.read b = .ok x)
    (ht : u8 b 1 = 0xA1 ∨ u8 b 1 = 0xB1) :
    let o := textBase b
    let n := u16be b 2 - 12 - textOption b
    12 + textOption b ≤ u16be b 2 ∧ o + 12 + n ≤ b.length ∧
    x.message_length = u16be b 2 ∧ x.request_id = u32be b o ∧
    x.destination_ip = RadioIp.spec b (o + 4) ∧ x.source_ip = some (RadioIp.spec b (o + 8)) ∧ x.result = none ∧
    (∃ t, x.tmdata = some t ∧ encUtf16le t = slice b (o + 12) n) ∧
    (bitsAt b 1 1 = 1 → ∃ s, x.option_field = some s ∧ encUtf16le s = slice b (o + 12 + n) (u16be b 4)) ∧
    (bitsAt b 1 1 ≠ 1 → x.option_field = none) := by
  rw [C10_layout, text_spec] at h
  obtain ⟨e, h⟩ := of_map_fst_ok h
  obtain ⟨h0, h⟩ := of_upTo_ok h
  unfold TextMessageProtocol.restSpec at h
  simp only [Nat.zero_add] at h
  rw [if_pos ht] at h
  obtain ⟨h1, h⟩ := of_upTo_ok h
  obtain ⟨h2, h3, h⟩ := of_sizedAt_ok h
  obtain ⟨t, h4, h⟩ := of_decoded_ok h
  obtain ⟨of, e', h5, _, h⟩ := of_next_ok h
  cases h
  rw [optionSize_textOptLen] at h2 h3 h4 h5
  have hn : ((u16be b 2 : Int) - 12 - (textOption b : Int)).toNat = u16be b 2 - 12 - textOption b := by omega
  rw [hn] at h3 h4
  have h6 := of_optionSpec_ok h5
  refine ⟨by omega, h3, rfl, rfl, rfl, rfl, rfl, ⟨t, rfl, (decodeUtf16le_iff _ _).mp h4⟩, ?_, h6.2⟩
  intro hb
  obtain ⟨s, hs, hs', _⟩ := h6.1 hb
  exact ⟨s, hs, hs'⟩

/-- "Hi", without and with an option. -/
example := C10_text [0x00, 0xA1, 0, 16, 0, 0, 0, 7, 10, 0, 0, 80, 10, 0, 0, 90, 0x48, 0, 0x69, 0] _ rfl (by decide)
example := C10_text [0x40, 0xB1, 0, 18, 0, 2, 0, 0, 0, 7, 10, 0, 0, 80, 10, 0, 0, 90, 0x48, 0, 0x69, 0] _ rfl (by decide)

/-- C10: how a private or group message whose header and addresses are complete fails: a declared length that is too
small gives ValueError, missing text bytes give EOFError, undecodable text gives UnicodeDecodeError. -/
theorem C10_errors (b : Bytes) (ht : u8 b 1 = 0xA1 ∨ u8 b 1 = 0xB1) (hl : textBase b + 12 ≤ b.length) :
    (u16be b 2 < 12 + textOption b → fromBytes TextMessageProtocol.read b = .error .value) ∧
    (12 + textOption b ≤ u16be b 2 → b.length < textBase b + (u16be b 2 - textOption b) →
      fromBytes TextMessageProtocol.read b = .error .eof) ∧
    (12 + textOption b ≤ u16be b 2 → textBase b + (u16be b 2 - textOption b) ≤ b.length →
      (∀ t, encUtf16le t ≠ slice b (textBase b + 12) (u16be b 2 - 12 - textOption b)) →
      fromBytes TextMessageProtocol.read b = .error .unicode) := by
  rw [C10_layout, text_spec, upTo, if_pos (by omega)]
  unfold TextMessageProtocol.restSpec
  simp only [Nat.zero_add]
  rw [if_pos ht, upTo, if_pos hl, optionSize_textOptLen]
  unfold sizedAt
  refine ⟨?_, ?_, ?_⟩
  · intro h
    rw [if_pos (by omega)]; rfl
  · intro h h'
    rw [if_neg (by omega), if_neg (by omega)]; rfl
  · intro h h' hu
    have hn : ((u16be b 2 : Int) - 12 - (textOption b : Int)).toNat = u16be b 2 - 12 - textOption b := by omega
    rw [if_neg (by omega), if_pos (by omega), hn]
    have : decodeUtf16le (slice b (textBase b + 12) (u16be b 2 - 12 - textOption b)) = none := by
      rcases hd : decodeUtf16le (slice b (textBase b + 12) (u16be b 2 - 12 - textOption b)) with _ | t
      · rfl
      · exact absurd ((decodeUtf16le_iff _ _).mp hd) (hu t)
    simp only [this, decoded]; rfl

/-- A length that is too small, a text that is cut, a lone surrogate. -/
example := (C10_errors [0x00, 0xA1, 0, 11, 0, 0, 0, 7, 10, 0, 0, 80, 10, 0, 0, 90] (by decide) (by decide)).1 (by decide)
example := (C10_errors [0x00, 0xA1, 0, 14, 0, 0, 0, 7, 10, 0, 0, 80, 10, 0, 0, 90, 0x48] (by decide) (by decide)).2.1 (by decide) (by decide)
example := (C10_errors [0x00, 0xA1, 0, 14, 0, 0, 0, 7, 10, 0, 0, 80, 10, 0, 0, 90, 0x3d, 0xd8] (by decide) (by decide)).2.2
  (by decide) (by decide) fun _ h => Option.some_ne_none _ ((show decodeUtf16le [0x3d, 0xd8] = none by decide).symm.trans ((decodeUtf16le_iff _ _).mpr h)).symm

/-- C10: acknowledgements carry a result and no text; a group acknowledgement (B2) carries no source address. -/
theorem C10_ack (b : Bytes) (x : TextMessageProtocol) (h : fromBytes TextMessageProtocol.read b = .ok x) :
    let o := textBase b
    (u8 b 1 = 0xA2 → x.tmdata = none ∧ x.source_ip = some (RadioIp.spec b (o + 8)) ∧
      x.result = some (resolveEnum _ (u8 b (o + 12)))) ∧
    (u8 b 1 = 0xB2 → x.tmdata = none ∧ x.source_ip = none ∧ x.result = some (resolveEnum _ (u8 b (o + 8)))) := by
  rw [C10_layout, text_spec] at h
  obtain ⟨e, h⟩ := of_map_fst_ok h
  obtain ⟨h0, h⟩ := of_upTo_ok h
  unfold TextMessageProtocol.restSpec at h
  simp only [Nat.zero_add] at h
  constructor
  · intro ht
    rw [if_neg (by omega), if_pos ht] at h
    obtain ⟨_, h⟩ := of_upTo_ok h
    obtain ⟨_, _, _, _, h⟩ := of_next_ok h
    cases h
    exact ⟨rfl, rfl, rfl⟩
  · intro ht
    rw [if_neg (by omega), if_neg (by omega), if_pos ht] at h
    obtain ⟨_, h⟩ := of_upTo_ok h
    obtain ⟨_, _, _, _, h⟩ := of_next_ok h
    cases h
    exact ⟨rfl, rfl, rfl⟩

example := (C10_ack [0x00, 0xA2, 0, 13, 0, 0, 0, 7, 10, 0, 0, 80, 10, 0, 0, 90, 0] _ rfl).1 (by decide)
example := (C10_ack [0x00, 0xB2, 0, 9, 0, 0, 0, 7, 10, 0, 0, 80, 0] _ rfl).2 (by decide)

/-- "Hi" to a radio; the same with a declared length that is too small; a group acknowledgement. -/
example : (fromBytes TextMessageProtocol.read
    [0x00, 0xA1, 0, 16, 0, 0, 0, 7, 10, 0, 0, 80, 10, 0, 0, 90, 0x48, 0, 0x69, 0]).map (fun x => x.tmdata) =
    .ok (some ['H', 'i']) := by decide
example : fromBytes TextMessageProtocol.read
    [0x00, 0xA1, 0, 11, 0, 0, 0, 7, 10, 0, 0, 80, 10, 0, 0, 90, 0x48, 0, 0x69, 0] = .error .value := by decide
example : (fromBytes TextMessageProtocol.read [0x00, 0xB2, 0, 9, 0, 0, 0, 7, 10, 0, 0, 80, 0]).map
    (fun x => (x.source_ip, x.tmdata)) = .ok (none, none) := by decide

/-! ### C11 -/

/-- C11: a data transmit message is its documented layout. -/
theorem C11_layout (b : Bytes) :
    fromBytes DataTransmitProtocol.read b = (DataTransmitProtocol.spec b 0).map Prod.fst :=
  DataTransmitProtocol.parses.fromBytes b

/-- C11: a data slice (type 02) carries the addresses, a 16 bit block number and exactly `message_length - 10` bytes of
file data; ValueError if the length is below 10, EOFError if data are missing. -/
theorem C11_slice (b : Bytes) (ht : u8 b 1 = 0x02) :
    fromBytes DataTransmitProtocol.read b =
      if b.length < 14 then .error .eof
      else if u16be b 2 < 10 then .error .value
      else if b.length < 14 + (u16be b 2 - 10) then .error .eof
      else .ok { service_type := resolveEnum _ (u8 b 0)
                 service_specific_type := .known .data_slice_transmit
                 message_length := u16be b 2
                 data := some (.dataSliceTransmit
                   { destination_ip := RadioIp.spec b 4, source_ip := RadioIp.spec b 8, block_number := u16be b 12
                     file_data := slice b 14 (u16be b 2 - 10) }) } := by
  have hr : resolveEnum DataTransmitProtocol.ServiceSpecificTypes 2 = .known .data_slice_transmit := rfl
  rw [C11_layout, DataTransmitProtocol.spec]
  simp only [Nat.zero_add, DataTransmitProtocol.bodySpec, ht, Nat.reduceEqDiff, if_true, if_false,
    DataTransmitProtocol.DataSliceTransmit.spec, Nat.reduceAdd, sizedAt, upTo]
  rw [hr]
  have hn : ((u16be b 2 : Int) - 10).toNat = u16be b 2 - 10 := by omega
  rw [hn]
  by_cases h1 : b.length < 14
  · rw [if_pos h1, if_neg (by omega : ¬ 14 ≤ b.length)]
    split <;> rfl
  · rw [if_neg h1, if_pos (by omega : 4 ≤ b.length), if_pos (by omega : 14 ≤ b.length)]
    by_cases h2 : u16be b 2 < 10
    · have h2' : (u16be b 2 : Int) - 10 < 0 := by omega
      rw [if_pos h2, if_pos h2']; rfl
    · have h2' : ¬ (u16be b 2 : Int) - 10 < 0 := by omega
      rw [if_neg h2, if_neg h2']
      by_cases h3 : b.length < 14 + (u16be b 2 - 10)
      · rw [if_pos h3, if_neg (by omega : ¬ 14 + (u16be b 2 - 10) ≤ b.length)]; rfl
      · have h3' : 14 + (u16be b 2 - 10) ≤ b.length := by omega
        rw [if_neg h3, if_pos h3']
        simp only [Parsed.as, next, if_pos h3']; rfl

example := C11_slice [1, 2, 0, 13, 10, 0, 0, 1, 10, 0, 0, 2, 0, 5, 0xAA, 0xBB, 0xCC, 0xDD] (by decide)

/-- C11: a request (type 01) carries the addresses, the file size and `message_length - 10` bytes of UTF-16LE file
name. -/
theorem C11_request (b : Bytes) (ht : u8 b 1 = 0x01) :
    fromBytes DataTransmitProtocol.read b =
      if b.length < 14 then .error .eof
      else if u16be b 2 < 10 then .error .value
      else if b.length < 14 + (u16be b 2 - 10) then .error .eof
      else match decodeUtf16le (slice b 14 (u16be b 2 - 10)) with
        | none => .error .unicode
        | some name => .ok { service_type := resolveEnum _ (u8 b 0)
                             service_specific_type := .known .dtp_request
                             message_length := u16be b 2
                             data := some (.dtpRequest
                               { destination_ip := RadioIp.spec b 4, source_ip := RadioIp.spec b 8
                                 file_size := u16be b 12, file_name := name }) } := by
  have hr : resolveEnum DataTransmitProtocol.ServiceSpecificTypes 1 = .known .dtp_request := rfl
  rw [C11_layout, DataTransmitProtocol.spec]
  simp only [Nat.zero_add, DataTransmitProtocol.bodySpec, ht, if_true,
    DataTransmitProtocol.DtpRequest.spec, Nat.reduceAdd, sizedAt, upTo]
  rw [hr]
  have hn : ((u16be b 2 : Int) - 10).toNat = u16be b 2 - 10 := by omega
  rw [hn]
  by_cases h1 : b.length < 14
  · rw [if_pos h1, if_neg (by omega : ¬ 14 ≤ b.length)]
    split <;> rfl
  · rw [if_neg h1, if_pos (by omega : 4 ≤ b.length), if_pos (by omega : 14 ≤ b.length)]
    by_cases h2 : u16be b 2 < 10
    · have h2' : (u16be b 2 : Int) - 10 < 0 := by omega
      rw [if_pos h2, if_pos h2']; rfl
    · have h2' : ¬ (u16be b 2 : Int) - 10 < 0 := by omega
      rw [if_neg h2, if_neg h2']
      by_cases h3 : b.length < 14 + (u16be b 2 - 10)
      · rw [if_pos h3, if_neg (by omega : ¬ 14 + (u16be b 2 - 10) ≤ b.length)]; rfl
      · have h3' : 14 + (u16be b 2 - 10) ≤ b.length := by omega
        rw [if_neg h3, if_pos h3']
        rcases decodeUtf16le (slice b 14 (u16be b 2 - 10)) with _ | t
        · rfl
        · simp only [decoded, Parsed.as, next, if_pos h3']; rfl

example := C11_request [1, 1, 0, 12, 10, 0, 0, 1, 10, 0, 0, 2, 0, 5, 0x41, 0] (by decide)

/-- Sizes of the bodies of the other data transmit messages: type, size. -/
def dtpAnswerTable : List (Nat × Nat) := [(0x03, 8), (0x11, 9), (0x12, 11), (0x13, 9)]

/-- The body of an answer or of the last slice marker, by type, from the documented offsets. -/
def dtpAnswer (b : Bytes) : Option DataTransmitProtocol.DataUnion :=
  if u8 b 1 = 0x03 then
    some (.lastDataSlice { destination_ip := RadioIp.spec b 4, source_ip := RadioIp.spec b 8 })
  else if u8 b 1 = 0x11 then
    some (.dtpAnswer { destination_ip := RadioIp.spec b 4, source_ip := RadioIp.spec b 8, result := resolveEnum _ (u8 b 12) })
  else if u8 b 1 = 0x12 then
    some (.dataSliceAnswer { destination_ip := RadioIp.spec b 4, source_ip := RadioIp.spec b 8,
                             block_number := u16be b 12, result := resolveEnum _ (u8 b 14) })
  else if u8 b 1 = 0x13 then
    some (.lastDataSliceAnswer { destination_ip := RadioIp.spec b 4, source_ip := RadioIp.spec b 8,
                                 result := resolveEnum _ (u8 b 12) })
  else none

/-- C11: every other type: fixed size answers with addresses and result at fixed offsets; unknown types have no body. -/
theorem C11_answers (b : Bytes) (h1 : u8 b 1 ≠ 0x01) (h2 : u8 b 1 ≠ 0x02) :
    fromBytes DataTransmitProtocol.read b =
      if b.length < 4 + (dtpAnswerTable.lookup (u8 b 1)).getD 0 then .error .eof
      else .ok { service_type := resolveEnum _ (u8 b 0)
                 service_specific_type := resolveEnum _ (u8 b 1)
                 message_length := u16be b 2
                 data := dtpAnswer b } := by
  rw [C11_layout, DataTransmitProtocol.spec]
  simp only [Nat.zero_add, DataTransmitProtocol.bodySpec, h1, h2, if_false, upTo]
  rcases lookup_cases dtpAnswerTable (u8 b 1) with hc | ⟨hl, hc⟩
  · simp only [dtpAnswerTable, List.map_cons, List.map_nil, List.mem_cons, List.not_mem_nil, or_false] at hc
    have key : ∀ (n : Nat) (γ : Type) (f : Bytes → Nat → γ) (g : γ → DataTransmitProtocol.DataUnion)
        (mk : Option DataTransmitProtocol.DataUnion → DataTransmitProtocol),
        (if 4 ≤ b.length then next b ((whole n f b 4).as fun x => some (g x)) fun data e => (.ok (mk data, e) : Parsed _)
         else .error .eof).map Prod.fst =
        if b.length < 4 + n then .error .eof else .ok (mk (some (g (f b 4)))) := by
      intro n γ f g mk
      unfold whole
      by_cases h : b.length < 4 + n
      · rw [if_pos h]
        have h' : ¬ 4 + n ≤ b.length := by omega
        simp only [if_neg h', Parsed.as, next]
        split <;> rfl
      · have h' : 4 + n ≤ b.length := by omega
        have h'' : 4 ≤ b.length := by omega
        rw [if_neg h]
        simp only [if_pos h', if_pos h'', Parsed.as, next]; rfl
    rcases hc with h | h | h | h <;>
      simp only [h, dtpAnswerTable, dtpAnswer, List.lookup, Nat.reduceBEq, Nat.reduceEqDiff, if_true, if_false] <;>
      rw [key] <;> rfl
  · rw [hl]
    simp only [dtpAnswerTable, List.map_cons, List.map_nil, List.mem_cons, List.not_mem_nil, or_false, forall_eq_or_imp,
      forall_eq, ne_eq] at hc
    simp only [hc, if_false, dtpAnswer, Option.getD_none, Nat.add_zero, next]
    by_cases h : b.length < 4
    · have h' : ¬ 4 ≤ b.length := by omega
      rw [if_pos h, if_neg h']; rfl
    · have h' : 4 ≤ b.length := by omega
      rw [if_neg h, if_pos h', if_pos h']; rfl

example := C11_answers [1, 0x12, 0, 11, 10, 0, 0, 1, 10, 0, 0, 2, 0, 5, 0] (by decide) (by decide)

example : (fromBytes DataTransmitProtocol.read [1, 2, 0, 13, 10, 0, 0, 1, 10, 0, 0, 2, 0, 5, 0xAA, 0xBB, 0xCC, 0xDD]).map
    (fun x => x.data) = .ok (some (.dataSliceTransmit ⟨⟨10, 0, 0, 1⟩, ⟨10, 0, 0, 2⟩, 5, [0xAA, 0xBB, 0xCC]⟩)) := by decide
example : fromBytes DataTransmitProtocol.read [1, 2, 0, 9, 10, 0, 0, 1, 10, 0, 0, 2, 0, 5] = .error .value := by decide

/-! ### C12 -/

/-- C12: data delivery states need 11 bytes and every field is the documented slice. -/
theorem C12_layout (b : Bytes) :
    fromBytes DataDeliveryStates.read b =
      if 11 ≤ b.length then
        .ok { reserved := slice b 0 1
              state_type := resolveEnum _ (u8 b 1)
              message_length := u16be b 2
              radio_ip := { subnet := u8 b 4, radio_id_1 := u8 b 5, radio_id_2 := u8 b 6, radio_id_3 := u8 b 7 }
              protocol_opcode := u16be b 8
              result := resolveEnum _ (u8 b 10) }
      else .error .eof := by
  rw [DataDeliveryStates.fixed.fromBytes]; rfl

example : (fromBytes DataDeliveryStates.read [0, 0x80, 0, 7, 10, 0, 0, 80, 0xA0, 0x01, 0]).map
    (fun x => (x.radio_ip.radio_id, x.protocol_opcode)) = .ok (80, 0xA001) := by decide

/-! ### C13 -/

/-- Size of a registration message by type. -/
def rrsSize (type : Nat) : Nat := if type = 0x80 then 13 else if type = 0x82 then 9 else 8

/-- C13: the leading byte must be 00; the message is 8, 9 or 13 bytes; `result` is there iff the type is an
acknowledgement (80, 82), `valid_time` iff it is a registration acknowledgement (80). -/
theorem C13_layout (b : Bytes) :
    fromBytes RadioRegistrationService.read b =
      if b.length < 1 then .error .eof
      else if u8 b 0 ≠ 0 then .error (.validation "/seq/0")
      else if b.length < 8 ∨ b.length < rrsSize (u8 b 1) then .error .eof
      else .ok { opcode := [0x00]
                 rrs_type := resolveEnum _ (u8 b 1)
                 message_length := u16be b 2
                 radio_ip := RadioIp.spec b 4
                 result := if u8 b 1 = 0x80 ∨ u8 b 1 = 0x82 then some (u8 b 8) else none
                 valid_time := if u8 b 1 = 0x80 then some (u32be b 9) else none } := by
  rw [RadioRegistrationService.parses.fromBytes, RadioRegistrationService.spec]
  simp only [Nat.zero_add, fixedAt, List.length_cons, List.length_nil, upTo]
  by_cases h1 : b.length < 1
  · rw [if_pos h1, if_neg (by omega : ¬ 1 ≤ b.length)]; rfl
  · have h1' : 1 ≤ b.length := by omega
    rw [if_neg h1, if_pos h1']
    by_cases h0 : u8 b 0 = 0
    · have h0' := (slice_one_eq b 0 0x00 (by omega)).mpr h0
      have hne : ¬ (u8 b 0 ≠ 0) := by simp [h0]
      rw [if_pos h0', if_neg hne]
      by_cases h8 : b.length < 8
      · rw [if_neg (by omega : ¬ 8 ≤ b.length), if_pos (Or.inl h8)]; rfl
      · rw [if_pos (by omega : 8 ≤ b.length), h0']
        unfold rrsSize
        by_cases ha : u8 b 1 = 0x80
        · simp only [ha, if_true]
          by_cases hl : b.length < 13
          · rw [if_pos (Or.inr hl), if_neg (by omega : ¬ 13 ≤ b.length)]; rfl
          · have hn : ¬ (b.length < 8 ∨ b.length < 13) := by omega
            rw [if_neg hn, if_pos (by omega : 13 ≤ b.length)]; simp only [true_or, if_true]; rfl
        · by_cases hb : u8 b 1 = 0x82
          · simp only [hb, Nat.reduceEqDiff, if_true, if_false]
            by_cases hl : b.length < 9
            · rw [if_pos (Or.inr hl), if_neg (by omega : ¬ 9 ≤ b.length)]; rfl
            · have hn : ¬ (b.length < 8 ∨ b.length < 9) := by omega
              rw [if_neg hn, if_pos (by omega : 9 ≤ b.length)]; simp only [or_true, if_true]; rfl
          · simp only [ha, hb, if_false]
            rw [if_neg (by omega)]; rfl
    · have h0' : ¬ slice b 0 1 = [0x00] := fun h => h0 ((slice_one_eq b 0 0x00 (by omega)).mp h)
      rw [if_neg h0', if_pos h0]; rfl

example : (fromBytes RadioRegistrationService.read [0, 0x80, 0, 9, 10, 0, 0, 80, 0, 0, 0, 0x0E, 0x10]).map
    (fun x => (x.result, x.valid_time)) = .ok (some 0, some 3600) := by decide
example : fromBytes RadioRegistrationService.read [1, 3, 0, 4, 10, 0, 0, 80] = .error (.validation "/seq/0") := by decide

/-! ### C14 -/

/-- C14: a radio control message is its documented layout; in particular service type and length are little-endian. -/
theorem C14_layout (b : Bytes) :
    fromBytes RadioControlProtocol.read b = (RadioControlProtocol.spec b 0).map Prod.fst :=
  RadioControlProtocol.parses.fromBytes b

/-- Service types with a dedicated body (call reply/request, identification reply, broadcast configuration
request/reply, remove radio request/reply). -/
def rcpDedicated : List Nat := [0x8841, 0x82D4, 0x10C9, 0x0841, 0x0842, 0x80C9, 0x8842]

/-- C14: every other service type yields exactly `message_length` payload bytes. -/
theorem C14_generic (b : Bytes) (ht : u8 b 0 + 256 * u8 b 1 ∉ rcpDedicated) :
    fromBytes RadioControlProtocol.read b =
      if b.length < 4 ∨ b.length < 4 + (u8 b 2 + 256 * u8 b 3) then .error .eof
      else .ok { service_type := resolveEnum _ (u8 b 0 + 256 * u8 b 1)
                 message_length := u8 b 2 + 256 * u8 b 3
                 data := .genericData { data := slice b 4 (u8 b 2 + 256 * u8 b 3) } } := by
  have e1 : u8 b 0 + 256 * u8 b 1 = u16le b 0 := by simp only [u16le, Nat.zero_add]; omega
  have e2 : u8 b 2 + 256 * u8 b 3 = u16le b 2 := by simp only [u16le, Nat.reduceAdd]; omega
  rw [e1] at ht ⊢
  rw [e2]
  simp only [rcpDedicated, List.mem_cons, List.not_mem_nil, or_false, not_or] at ht
  rw [C14_layout, RadioControlProtocol.spec]
  simp only [Nat.zero_add, RadioControlProtocol.bodySpec, ht, if_false, upTo]
  by_cases h : b.length < 4 ∨ b.length < 4 + u16le b 2
  · rw [if_pos h]
    by_cases h4 : 4 ≤ b.length
    · rw [if_pos h4, if_neg (by omega : ¬ 4 + u16le b 2 ≤ b.length)]; rfl
    · rw [if_neg h4]; rfl
  · have h' : 4 + u16le b 2 ≤ b.length := by omega
    rw [if_neg h, if_pos (by omega : 4 ≤ b.length), if_pos h', next, if_pos h']; rfl

/-- C14: a broadcast configuration request (10C9) yields exactly as many pairs as announced. -/
theorem C14_broadcast (b : Bytes) (ht : u16le b 0 = 0x10C9) :
    fromBytes RadioControlProtocol.read b =
      if b.length < 5 ∨ b.length < 5 + 2 * u8 b 4 then .error .eof
      else .ok { service_type := .known .broadcast_status_configuration_request
                 message_length := u16le b 2
                 data := .broadcastStatusConfigurationRequest
                   { num_broadcast_configuration := u8 b 4
                     broadcast_configuration := (List.range (u8 b 4)).map fun i =>
                       { config_operation := u8 b (5 + 2 * i), config_target := u8 b (6 + 2 * i) } } } := by
  have hr : resolveEnum RadioControlProtocol.ServiceTypes (u16le b 0) = .known .broadcast_status_configuration_request := by
    rw [ht]; rfl
  rw [C14_layout, RadioControlProtocol.spec]
  simp only [Nat.zero_add, RadioControlProtocol.bodySpec, ht, Nat.reduceEqDiff, if_true, if_false,
    RadioControlProtocol.BroadcastStatusConfigurationRequest.spec, upTo, Nat.reduceAdd]
  rw [← ht, hr]
  by_cases h : b.length < 5 ∨ b.length < 5 + 2 * u8 b 4
  · rw [if_pos h]
    by_cases h4 : 4 ≤ b.length
    · rw [if_pos h4]
      by_cases h5 : 5 ≤ b.length
      · rw [if_pos h5, if_neg (by omega : ¬ 5 + 2 * u8 b 4 ≤ b.length)]; rfl
      · rw [if_neg h5]; rfl
    · rw [if_neg h4]; rfl
  · have h' : 5 + 2 * u8 b 4 ≤ b.length := by omega
    rw [if_neg h, if_pos (by omega : 4 ≤ b.length), if_pos (by omega : 5 ≤ b.length), if_pos h']
    simp only [Parsed.as, next, if_pos h', RadioControlProtocol.BroadcastConfiguration.spec]
    have e : ∀ i, 6 + 2 * i = 5 + 2 * i + 1 := by intro i; omega
    simp only [e]; rfl

/-- C14: the identification reply takes 0, 6, 198 or 206 bytes of data by the announced length. -/
theorem C14_identification (b : Bytes) (ht : u16le b 0 = 0x82D4) (hl : 4 ≤ b.length) :
    let n := u16le b 2
    let k := if n < 6 then 0 else if n < 198 then 6 else if n < 206 then 198 else 206
    (∀ x, fromBytes RadioControlProtocol.read b = .ok x → 4 + k ≤ b.length ∧
      ∃ y, x.data = .radioIdentificationReply y ∧
        y.header = (if n < 6 then none else some (slice b 4 6)) ∧
        (n < 198 → y.text = none) ∧
        (198 ≤ n → ∃ t, y.text = some t ∧ encUtf16be t = slice b 10 192) ∧
        y.footer = (if n < 206 then none else some (slice b 202 8))) ∧
    (b.length < 4 + k → fromBytes RadioControlProtocol.read b = .error .eof ∨
      (202 ≤ b.length ∧ fromBytes RadioControlProtocol.read b = .error .unicode)) := by
  rw [C14_layout, RadioControlProtocol.spec]
  simp only [Nat.zero_add, RadioControlProtocol.bodySpec, ht, Nat.reduceEqDiff, if_true, if_false]
  rw [upTo, if_pos hl, RadioControlProtocol.RadioIdentificationReply.spec]
  simp only [Nat.reduceAdd]
  generalize u16le b 2 = n
  by_cases h6 : n < 6
  · simp only [if_pos h6, if_pos (by omega : n < 206), Parsed.as, next, if_pos hl]
    constructor
    · intro x hx
      cases hx
      exact ⟨by omega, _, rfl, rfl, fun _ => rfl, fun h => by omega, rfl⟩
    · intro h; omega
  · simp only [if_neg h6]
    unfold upTo
    by_cases h198 : n < 198
    · simp only [if_pos h198, if_pos (by omega : n < 206)]
      by_cases h10 : 10 ≤ b.length
      · simp only [if_pos h10, Parsed.as, next]
        constructor
        · intro x hx
          cases hx
          exact ⟨by omega, _, rfl, rfl, fun _ => rfl, fun h => by omega, rfl⟩
        · intro h; omega
      · simp only [if_neg h10, Parsed.as, next]
        constructor
        · intro x hx; cases hx
        · intro _; exact .inl rfl
    · simp only [if_neg h198]
      unfold textAt
      simp only [Nat.reduceAdd]
      by_cases h10 : 10 ≤ b.length
      · simp only [if_pos h10]
        by_cases h202 : 202 ≤ b.length
        · simp only [if_pos h202]
          rcases hd : decodeUtf16be (slice b 10 192) with _ | t
          · simp only [decoded, Parsed.as, next]
            constructor
            · intro x hx; cases hx
            · intro _; exact .inr ⟨h202, rfl⟩
          · have he := (decodeUtf16be_iff _ _).mp hd
            simp only [decoded]
            by_cases h206 : n < 206
            · simp only [if_pos h206, Parsed.as, next, if_pos h202]
              constructor
              · intro x hx
                cases hx
                exact ⟨by omega, _, rfl, rfl, fun h => by omega, fun _ => ⟨t, rfl, he⟩, rfl⟩
              · intro h; omega
            · simp only [if_neg h206]
              by_cases h210 : 210 ≤ b.length
              · simp only [if_pos h210, Parsed.as, next]
                constructor
                · intro x hx
                  cases hx
                  exact ⟨by omega, _, rfl, rfl, fun h => by omega, fun _ => ⟨t, rfl, he⟩, rfl⟩
                · intro h; omega
              · simp only [if_neg h210, Parsed.as, next]
                constructor
                · intro x hx; cases hx
                · intro _; exact .inl rfl
        · simp only [if_neg h202, Parsed.as, next]
          constructor
          · intro x hx; cases hx
          · intro _; exact .inl rfl
      · simp only [if_neg h10, Parsed.as, next]
        constructor
        · intro x hx; cases hx
        · intro _; exact .inl rfl

example := C14_identification ([0xD4, 0x82, 206, 0] ++ List.replicate 206 0x41) rfl (by decide +kernel)

/-- C14: the other dedicated bodies at their offsets. -/
theorem C14_dedicated (b : Bytes) :
    (u16le b 0 = 0x0841 → fromBytes RadioControlProtocol.read b =
      if b.length < 9 then .error .eof
      else .ok { service_type := .known .call_request, message_length := u16le b 2
                 data := .callRequest { call_type := resolveEnum _ (u8 b 4), target_id := u32le b 5 } }) ∧
    (u16le b 0 = 0x8841 → fromBytes RadioControlProtocol.read b =
      if b.length < 5 then .error .eof
      else .ok { service_type := .known .call_reply, message_length := u16le b 2
                 data := .callReply { result := resolveEnum _ (u8 b 4) } }) ∧
    (u16le b 0 = 0x80C9 → fromBytes RadioControlProtocol.read b =
      if b.length < 5 then .error .eof
      else .ok { service_type := .known .broadcast_status_configuration_reply, message_length := u16le b 2
                 data := .broadcastStatusConfigurationReply { result := resolveEnum _ (u8 b 4) } }) ∧
    (u16le b 0 = 0x8842 → fromBytes RadioControlProtocol.read b =
      if b.length < 5 then .error .eof
      else .ok { service_type := .known .remove_radio_reply, message_length := u16le b 2
                 data := .removeRadioReply { result := resolveEnum _ (u8 b 4) } }) ∧
    (u16le b 0 = 0x0842 → fromBytes RadioControlProtocol.read b =
      if b.length < 4 then .error .eof
      else .ok { service_type := .known .remove_radio_request, message_length := u16le b 2
                 data := .removeRadioRequest {} }) := by
  rw [C14_layout, RadioControlProtocol.spec]
  simp only [Nat.zero_add]
  have key : ∀ (n : Nat) (γ : Type) (f : Bytes → Nat → γ) (g : γ → RadioControlProtocol.DataUnion)
      (mk : RadioControlProtocol.DataUnion → RadioControlProtocol),
      (upTo b 4 (next b ((whole n f b 4).as g) fun data e => (.ok (mk data, e) : Parsed _))).map Prod.fst =
      if b.length < 4 + n then .error .eof else .ok (mk (g (f b 4))) := by
    intro n γ f g mk
    unfold whole upTo
    by_cases h : b.length < 4 + n
    · rw [if_pos h]
      have h' : ¬ 4 + n ≤ b.length := by omega
      simp only [if_neg h', Parsed.as, next]
      split <;> rfl
    · have h' : 4 + n ≤ b.length := by omega
      have h'' : 4 ≤ b.length := by omega
      rw [if_neg h]
      simp only [if_pos h', if_pos h'', Parsed.as, next]; rfl
  refine ⟨?_, ?_, ?_, ?_, ?_⟩ <;> intro ht <;>
    simp only [ht, RadioControlProtocol.bodySpec, Nat.reduceEqDiff, if_true, if_false]
  · have hr : resolveEnum RadioControlProtocol.ServiceTypes 0x0841 = .known .call_request := rfl
    rw [key, hr]; rfl
  · have hr : resolveEnum RadioControlProtocol.ServiceTypes 0x8841 = .known .call_reply := rfl
    rw [key, hr]; rfl
  · have hr : resolveEnum RadioControlProtocol.ServiceTypes 0x80C9 = .known .broadcast_status_configuration_reply := rfl
    rw [key, hr]; rfl
  · have hr : resolveEnum RadioControlProtocol.ServiceTypes 0x8842 = .known .remove_radio_reply := rfl
    rw [key, hr]; rfl
  · have hr : resolveEnum RadioControlProtocol.ServiceTypes 0x0842 = .known .remove_radio_request := rfl
    rw [hr]
    unfold upTo next
    by_cases h : b.length < 4
    · rw [if_pos h, if_neg (by omega : ¬ 4 ≤ b.length)]; rfl
    · simp only [if_neg h, if_pos (by omega : 4 ≤ b.length)]; rfl

example : (fromBytes RadioControlProtocol.read [0x52, 0x80, 2, 0, 0xAA, 0xBB, 0xCC]).map (fun x => x.data) =
    .ok (.genericData ⟨[0xAA, 0xBB]⟩) := by
  rw [C14_generic _ (by decide), if_neg (by decide)]; decide
example : (fromBytes RadioControlProtocol.read [0xC9, 0x10, 5, 0, 2, 1, 2, 3, 4]).map (fun x => x.data) =
    .ok (.broadcastStatusConfigurationRequest ⟨2, [⟨1, 2⟩, ⟨3, 4⟩]⟩) := by
  rw [C14_broadcast _ (by decide), if_neg (by decide)]; decide

end Dmr.Hytera
