import Verif.Props.MotorolaMessages
/-
C43, continued: what exactly a Motorola text message loses whose header lacks the encoding part.
-/

set_option autoImplicit false

namespace Dmr

open Motorola Dmr.Spec

/-- A text message with a header has been decoded from these bytes. -/
theorem text_with_header {b : Bytes} {x : TextMessageProtocol} {t : TextMessageProtocol.TextMessage}
    {h : TextMessageProtocol.TextMessageHeaderSequenceAndEncoding} (hb : fromBytes TextMessageProtocol.read b = .ok x)
    (hx : x.pdu_content = some (.textMessage t)) (ht : t.text_message_header_sequence_and_encoding = some h) :
    ∃ (s0 s1 : UInt8) (ack reserved : Bool) (address : Bytes) (a y : UInt8) (text : PyStr), address.length < 256 ∧
      b = tmsBytes s0 s1 true ack reserved false 0 address (a :: y :: encUtf16le text) := by
  rcases C39_short b with ⟨s0, s1, f1, f2, f3, f4, k, address, body, hk, ha, rfl⟩ | he
  · by_cases h1 : f4 = false ∧ k = 0
    · obtain ⟨rfl, rfl⟩ := h1
      cases f1 with
      | true =>
        obtain ⟨e1, e2⟩ := C39_text_invalid s0 s1 true f2 f3 address ha body
        by_cases hl : body.length < 2
        · rw [e1 rfl hl] at hb; cases hb
        · by_cases hx : ∃ text, encUtf16le text = body.drop 2
          · obtain ⟨text, hx⟩ := hx
            match body, hl, hx with
            | a :: y :: rest, _, hx =>
              rw [List.drop_succ_cons, List.drop_succ_cons, List.drop_zero] at hx
              subst hx
              exact ⟨s0, s1, f2, f3, address, a, y, text, ha, rfl⟩
            | [], hl, _ => simp at hl
            | [_], hl, _ => simp at hl
          · rw [e2 (fun _ => by omega) fun text hn => hx ⟨text, hn⟩] at hb; cases hb
      | false =>
        obtain ⟨e1, e2⟩ := C39_text_invalid s0 s1 false f2 f3 address ha body
        by_cases hy : ∃ text, encUtf16le text = body
        · obtain ⟨text, rfl⟩ := hy
          rw [C39_text_plain s0 s1 f2 f3 address ha text] at hb
          cases hb
          cases hx
          cases ht
        · rw [e2 nofun fun text hn => hy ⟨text, hn⟩] at hb; cases hb
    · by_cases h2 : f4 = true ∧ f2 = false ∧ k = 15
      · obtain ⟨rfl, rfl, rfl⟩ := h2
        rw [C39_acknowledgement s0 s1 f1 f3 address ha body] at hb
        dsimp only at hb
        split at hb
        · cases hb; cases hx
        · cases hb
        · split at hb
          · split at hb
            · cases hb
            · cases hb; cases hx
          · cases hb; cases hx
      · by_cases h3 : f4 = true ∧ f2 = true ∧ k = 0
        · obtain ⟨rfl, rfl, rfl⟩ := h3
          rw [C39_availability s0 s1 f1 f3 address ha body] at hb
          dsimp only at hb
          split at hb
          · cases hb; cases hx
          · cases hb
          · cases hb; cases hx
        · rw [C39_other s0 s1 f1 f2 f3 f4 k hk address ha body h1 h2 h3] at hb
          cases hb
          cases hx
  · rw [he] at hb; cases hb

/-- C43: of a Motorola text message whose header lacks the encoding part all is kept but the last three bits of the second byte of that header. -/
theorem C43_motorola_text_rest (b b' : Bytes) (x : TextMessageProtocol) (t : TextMessageProtocol.TextMessage)
    (h : TextMessageProtocol.TextMessageHeaderSequenceAndEncoding) (hx : x.pdu_content = some (.textMessage t))
    (ht : t.text_message_header_sequence_and_encoding = some h) (hh : h.has_encoding_header = false)
    (hb : fromBytes TextMessageProtocol.read b = .ok x) (hb' : fromBytes TextMessageProtocol.read b' = .ok x) :
    ∃ (pre rest : Bytes) (y y' : UInt8), b = pre ++ y :: rest ∧ b' = pre ++ y' :: rest ∧ pre.length = 5 + x.len_address ∧
      y.toNat / 8 = y'.toNat / 8 := by
  obtain ⟨s0, s1, ack, reserved, address, a, y, text, ha, rfl⟩ := text_with_header hb hx ht
  obtain ⟨s0', s1', ack', reserved', address', a', y', text', ha', rfl⟩ := text_with_header hb' hx ht
  rw [C39_text_header _ _ _ _ _ ha] at hb
  rw [C39_text_header _ _ _ _ _ ha'] at hb'
  cases hb
  cases hx
  cases ht
  simp only [Except.ok.injEq, TextMessageProtocol.mk.injEq, TextMessageProtocol.MessageHeaderBits.mk.injEq, true_and, and_true,
    Option.some.injEq, TextMessageProtocol.PduContentUnion.textMessage.injEq, TextMessageProtocol.TextMessage.mk.injEq] at hb'
  obtain ⟨e1, ⟨rfl, rfl⟩, -, e2, e3, rfl⟩ := hb'
  obtain rfl : address' = address := by
    unfold present at e2
    split at e2 <;> split at e2
    · rename_i h1 h2; rw [h1, h2]
    · cases e2
    · cases e2
    · exact Option.some.inj e2
  have h0 : s0' = s0 := UInt8.toNat_inj.1 (by have := s1.toNat_lt; have := s1'.toNat_lt; omega)
  have h1 : s1' = s1 := UInt8.toNat_inj.1 (by have := s1.toNat_lt; have := s1'.toNat_lt; omega)
  subst h0 h1
  have hlt : ¬ 128 ≤ a.toNat := fun hn => by
    unfold textHeader at hh
    rw [if_pos hn] at hh
    cases hh
  have hlt' : ¬ 128 ≤ a'.toNat := fun hn => by
    rw [← e3] at hh
    unfold textHeader at hh
    rw [if_pos hn] at hh
    cases hh
  unfold textHeader at e3
  rw [if_neg hlt, if_neg hlt'] at e3
  simp only [TextMessageProtocol.TextMessageHeaderSequenceAndEncoding.mk.injEq, true_and] at e3
  obtain ⟨e4, e5, e6⟩ := e3
  obtain rfl : a' = a := UInt8.toNat_inj.1 (by omega)
  refine ⟨s0' :: s1' :: headerByte true ack' reserved' false 0 :: (withLength address' ++ [a']), encUtf16le text', y, y', ?_, ?_, ?_, e6.symm⟩
  · simp [tmsBytes]
  · simp [tmsBytes]
  · simp [withLength]
    omega

/-- Such messages: with the address 7, the letter A, and a second header byte 08 or 0F. -/
example := C43_motorola_text_rest [0, 9, 0x80, 1, 7, 0x01, 0x08, 0x41, 0] [0, 9, 0x80, 1, 7, 0x01, 0x0f, 0x41, 0]
  ⟨9, ⟨true, false, false, false, 0⟩, 1, some [7], some (.textMessage ⟨some ⟨false, 0, 1, none, none, 1⟩, ['A']⟩), []⟩ _ _ rfl rfl rfl
  (by decide +kernel) (by decide +kernel)

end Dmr
