import Verif.Props.HyteraFrames
import Verif.Layout.EtsiVar
import Verif.Layout.Etsi
/-
C23, C24, C25, C26, C27, C28: CSBK, data headers and their lazy body, data blocks, compressed IP header, full link
control.
-/

namespace Dmr.Etsi

open Dmr.Hytera (slice_two_eq take_append_slice)

/-! ### C23 -/

/-- The documented CSBK body of each of the six supported opcodes: `X.spec b 2` is the structure at bit 16. -/
def csbkBody (b : Bytes) : Option DmrCsbk.CsbkDataUnion :=
  let opcode := u8 b 0 % 64
  if opcode = 4 then some (.unitToUnitVoiceRequestData (DmrCsbk.UnitToUnitVoiceRequestData.spec b 2))
  else if opcode = 5 then some (.unitToUnitVoiceAnswerData (DmrCsbk.UnitToUnitVoiceAnswerData.spec b 2))
  else if opcode = 7 then some (.channelTimingData (DmrCsbk.ChannelTimingData.spec b 2))
  else if opcode = 38 then some (.negativeAckResponseData (DmrCsbk.NegativeAckResponseData.spec b 2))
  else if opcode = 56 then some (.bsOutboundActivationData (DmrCsbk.BsOutboundActivationData.spec b 2))
  else if opcode = 61 then some (.preambleData (DmrCsbk.PreambleData.spec b 2))
  else none

/-- C23: a CSBK needs 2 bytes, and 10 for a supported opcode; its fields. -/
theorem C23_layout (b : Bytes) :
    fromBytes DmrCsbk.read b =
      if b.length < 2 ∨ (u8 b 0 % 64 ∈ [4, 5, 7, 38, 56, 61] ∧ b.length < 10) then .error .eof
      else .ok { last_block := u8 b 0 / 128 == 1
                 protect_flag := u8 b 0 / 64 % 2 == 1
                 csbk_opcode := resolveEnum _ (u8 b 0 % 64)
                 feature_set_id := u8 b 1
                 csbk_data := csbkBody b } := by
  rw [DmrCsbk.parses.fromBytes, DmrCsbk.spec]
  simp only [Nat.zero_add, Nat.mul_zero, upTo]
  by_cases h2 : b.length < 2
  · rw [if_pos (Or.inl h2), if_neg (by omega : ¬ 2 ≤ b.length)]; rfl
  have h2' : 2 ≤ b.length := by omega
  have hb := u8_lt b 0
  have hb1 := u8_lt b 1
  have e0 : flagAt b 0 = (u8 b 0 / 128 == 1) := by
    have := flagAt_byte b 0 0 (by omega) (by omega)
    simp only [Nat.mul_zero, Nat.zero_add] at this
    have e : u8 b 0 / 2 ^ (7 - 0) % 2 = u8 b 0 / 128 := by norm_num; omega
    rw [this, e]; rfl
  have e1 : flagAt b 1 = (u8 b 0 / 64 % 2 == 1) := by
    have := flagAt_byte b 0 1 (by omega) (by omega)
    simp only [Nat.mul_zero, Nat.zero_add] at this
    rw [this]; rfl
  have e2 : bitsAt b 2 6 = u8 b 0 % 64 := by
    have := bitsAt_byte b 0 2 6 (by omega) (by omega)
    simp only [Nat.mul_zero, Nat.zero_add] at this
    rw [this]; norm_num
  have e8 : bitsAt b 8 8 = u8 b 1 := by
    have := bitsAt_byte b 1 0 8 (by omega) (by omega)
    simp only [Nat.mul_one, Nat.add_zero] at this
    rw [this]; norm_num; omega
  rw [if_pos h2', e0, e1, e2, e8]
  unfold DmrCsbk.bodySpec csbkBody
  generalize hop : u8 b 0 % 64 = op
  by_cases hm : op ∈ [4, 5, 7, 38, 56, 61]
  · have hm' := hm
    simp only [List.mem_cons, List.not_mem_nil, or_false] at hm'
    by_cases h10 : b.length < 10
    · rw [if_pos (Or.inr ⟨hm, h10⟩)]
      have h10' : ¬ 2 + 8 ≤ b.length := by omega
      rcases hm' with rfl | rfl | rfl | rfl | rfl | rfl <;>
        simp only [Nat.reduceEqDiff, if_true, if_false, whole, if_neg h10', Parsed.as, next] <;> rfl
    · have hn : ¬ (b.length < 2 ∨ (op ∈ [4, 5, 7, 38, 56, 61] ∧ b.length < 10)) := by
        rintro (h | ⟨-, h⟩)
        · omega
        · omega
      rw [if_neg hn]
      have h10' : 2 + 8 ≤ b.length := by omega
      rcases hm' with rfl | rfl | rfl | rfl | rfl | rfl <;>
        simp only [Nat.reduceEqDiff, if_true, if_false, whole, if_pos h10', Parsed.as, next] <;> rfl
  · have hn : ¬ (b.length < 2 ∨ (op ∈ [4, 5, 7, 38, 56, 61] ∧ b.length < 10)) := by
      rintro (h | ⟨h, -⟩)
      · omega
      · exact hm h
    rw [if_neg hn]
    simp only [List.mem_cons, List.not_mem_nil, or_false, not_or] at hm
    simp only [hm, if_false, next, if_pos h2']; rfl

/-- A preamble CSBK: 24 bit addresses of target and source. -/
example : (fromBytes DmrCsbk.read [0xBD, 0x00, 0xC0, 0x05, 0, 0, 9, 0, 0, 7]).map (fun x => (x.last_block, x.csbk_data)) =
    .ok (true, some (.preambleData ⟨resolveEnum _ 1, resolveEnum _ 1, 0, 5, 9, 7⟩)) := by
  rw [C23_layout, if_neg (by decide)]; rfl
example : (fromBytes DmrCsbk.read [0x3F, 0x00]).map (fun x => x.csbk_data) = .ok none := by
  rw [C23_layout, if_neg (by decide)]; decide

/-! ### C24, C25 -/

/-- C24: a data header needs one byte, and its format is the low nibble of that byte. -/
theorem C24_header (b : Bytes) :
    fromBytes DmrDataHeader.read b =
      if b.length < 1 then .error .eof
      else .ok { skip4 := u8 b 0 / 16, data_packet_format := resolveEnum _ (u8 b 0 % 16) } := by
  rw [DmrDataHeader.fixed.fromBytes]
  by_cases h : b.length < 1
  · rw [if_pos h, if_neg (by omega)]
  · have hb := u8_lt b 0
    have e0 : bitsAt b 0 4 = u8 b 0 / 16 := by
      have := bitsAt_byte b 0 0 4 (by omega) (by omega)
      simp only [Nat.mul_zero, Nat.zero_add] at this
      rw [this]; norm_num; omega
    have e4 : bitsAt b 4 4 = u8 b 0 % 16 := by
      have := bitsAt_byte b 0 4 4 (by omega) (by omega)
      simp only [Nat.mul_zero, Nat.zero_add] at this
      rw [this]; norm_num
    rw [if_neg h, if_pos (by omega)]
    simp only [DmrDataHeader.spec, Nat.mul_zero, Nat.zero_add, e0, e4]

/-- The object right after `from_bytes`. -/
theorem objFromBytes_eq (b : Bytes) (h : 1 ≤ b.length) :
    DmrDataHeader.objFromBytes b = .ok
      { attrs := { skip4 := u8 b 0 / 16, data_packet_format := resolveEnum _ (u8 b 0 % 16) }
        m_data := none, raw_m_data := none, io := { buf := b, pos := 1, bits := 0, bitsLeft := 0 } } := by
  have h1 := C24_header b
  rw [if_neg (by omega)] at h1
  have h2 := DmrDataHeader.fixed b 0 (by omega)
  rw [if_pos (by omega)] at h2
  unfold fromBytes at h1
  rw [Stream.new_eq_at] at h1
  unfold DmrDataHeader.objFromBytes
  rw [Stream.new_eq_at]
  unfold Rd.eval at h2
  rcases hr : DmrDataHeader.read (Stream.at b 0) with ⟨x, s⟩
  simp only [Nat.mul_zero] at h2
  rw [hr] at h1 h2
  simp only at h1
  subst h1
  simp only [Except.ok.injEq, Prod.mk.injEq] at h2
  rw [h2.2]
  have hs := Stream.at_byte b 1
  simp only [Nat.zero_add]
  rw [hs]

/-- What the user does with a header object: `k` accesses to `.data`, one after the other; the results in order, and the
object afterwards. -/
def accesses : Nat → DmrDataHeader.Obj → List (Except PyErr DmrDataHeader.DataUnion) × DmrDataHeader.Obj
  | 0, o => ([], o)
  | k + 1, o =>
    let (x, o1) := DmrDataHeader.accessData o
    let (xs, o2) := accesses k o1
    (x :: xs, o2)

/-- The raw read of one access: position remembered, 12 bytes from the start. -/
theorem raw_read (s : Stream) :
    (do let pos ← posIo
        seekIo 0
        let raw ← readBytes 12
        return (pos, raw) : Rd (Nat × Bytes)) s =
      if 12 ≤ s.buf.length then
        (.ok (s.pos, s.buf.take 12), { buf := s.buf, pos := 12, bits := 0, bitsLeft := 0 })
      else (.error .eof, { buf := s.buf, pos := s.buf.length, bits := 0, bitsLeft := 0 }) := by
  by_cases h : 12 ≤ s.buf.length
  · have hl : (s.buf.take 12).length = 12 := by simp; omega
    simp [bind, Rd.bind, posIo, seekIo, readBytes, alignToByte, readBytesNotAligned, pure, Rd.pure, h]
  · have hl : s.buf.take 12 = s.buf := List.take_of_length_le (by omega)
    simp [bind, Rd.bind, posIo, seekIo, readBytes, alignToByte, readBytesNotAligned, h, hl]

/-- The invariant of a header object made from at least 12 bytes. -/
def Good (b : Bytes) (d : DmrDataHeader.DataUnion) (o : DmrDataHeader.Obj) : Prop :=
  o.attrs.data_packet_format = resolveEnum _ (u8 b 0 % 16) ∧
  o.io = { buf := b, pos := 1, bits := 0, bitsLeft := 0 } ∧ (o.m_data = none ∨ o.m_data = some d)

theorem access_good {b : Bytes} (h : 12 ≤ b.length) {o : DmrDataHeader.Obj}
    (hg : Good b (DmrDataHeader.bodySpec (u8 b 0 % 16) (b.take 12)) o) :
    (DmrDataHeader.accessData o).1 = .ok (DmrDataHeader.bodySpec (u8 b 0 % 16) (b.take 12)) ∧
    Good b (DmrDataHeader.bodySpec (u8 b 0 % 16) (b.take 12)) (DmrDataHeader.accessData o).2 := by
  obtain ⟨attrs, m, raw, io⟩ := o
  obtain ⟨h1, h2, h3⟩ := hg
  simp only at h1 h2 h3
  subst h2
  rcases h3 with rfl | rfl
  · have hlen : (b.take 12).length = 12 := by simp; omega
    have hd := DmrDataHeader.readDataBody_eq (u8 b 0 % 16) (b.take 12) hlen
    unfold DmrDataHeader.accessData
    simp only [raw_read, if_pos h, h1, hd]
    exact ⟨trivial, h1, rfl, .inr rfl⟩
  · exact ⟨rfl, h1, rfl, .inr rfl⟩

theorem accesses_good {b : Bytes} (h : 12 ≤ b.length) (k : Nat) {o : DmrDataHeader.Obj}
    (hg : Good b (DmrDataHeader.bodySpec (u8 b 0 % 16) (b.take 12)) o) :
    (accesses k o).1 = List.replicate k (.ok (DmrDataHeader.bodySpec (u8 b 0 % 16) (b.take 12))) ∧
    Good b (DmrDataHeader.bodySpec (u8 b 0 % 16) (b.take 12)) (accesses k o).2 := by
  induction k generalizing o with
  | zero => exact ⟨rfl, hg⟩
  | succ k ih =>
    obtain ⟨a1, a2⟩ := access_good h hg
    obtain ⟨i1, i2⟩ := ih a2
    exact ⟨by simp only [accesses, a1, i1, List.replicate_succ], i2⟩

/-- C24: `.data` of a header of at least 12 bytes is the structure of its format (low nibble of byte 0), over the first
12 bytes. -/
theorem C24_data (b : Bytes) (h : 12 ≤ b.length) :
    ∃ o, DmrDataHeader.objFromBytes b = .ok o ∧
      (DmrDataHeader.accessData o).1 = .ok (
        let f := u8 b 0 % 16
        if f = 0 then .dataHeaderUdt (DmrDataHeader.DataHeaderUdt.spec (b.take 12) 0)
        else if f = 1 then .dataHeaderResponse (DmrDataHeader.DataHeaderResponse.spec (b.take 12) 0)
        else if f = 2 then .dataHeaderUnconfirmed (DmrDataHeader.DataHeaderUnconfirmed.spec (b.take 12) 0)
        else if f = 3 then .dataHeaderConfirmed (DmrDataHeader.DataHeaderConfirmed.spec (b.take 12) 0)
        else if f = 13 then .dataHeaderShortDefined (DmrDataHeader.DataHeaderShortDefined.spec (b.take 12) 0)
        else if f = 14 then
          .dataHeaderShortStatusPrecoded (DmrDataHeader.DataHeaderShortStatusPrecoded.spec (b.take 12) 0)
        else if f = 15 then .dataHeaderProprietary (DmrDataHeader.DataHeaderProprietary.spec (b.take 12) 0)
        else .dataHeaderUndefined ⟨b.take 12⟩) := by
  refine ⟨_, objFromBytes_eq b (by omega), ?_⟩
  rw [(access_good h ⟨rfl, rfl, .inl rfl⟩).1]
  unfold DmrDataHeader.bodySpec
  generalize u8 b 0 % 16 = f
  by_cases h15 : f = 15
  · subst h15; rfl
  by_cases h13 : f = 13
  · subst h13; rfl
  by_cases h2 : f = 2
  · subst h2; rfl
  by_cases h3 : f = 3
  · subst h3; rfl
  by_cases h0 : f = 0
  · subst h0; rfl
  by_cases h14 : f = 14
  · subst h14; rfl
  by_cases h1 : f = 1
  · subst h1; rfl
  simp only [h15, h13, h2, h3, h0, h14, h1, if_false]

example := C24_data [3, 1, 2, 3, 4, 5, 6, 7, 8, 9, 10, 11, 12] (by decide)

/-- C24: the number of appended blocks is `msb * 16 + lsb`, i.e. the bits 2,3 and 12..15 of the header as a number. -/
theorem C24_appended_blocks (b : Bytes) :
    (DmrDataHeader.DataHeaderShortRaw.spec b 0).appended_blocks = bitsAt b 2 2 * 16 + bitsAt b 12 4 ∧
    (DmrDataHeader.DataHeaderShortStatusPrecoded.spec b 0).appended_blocks = bitsAt b 2 2 * 16 + bitsAt b 12 4 ∧
    (DmrDataHeader.DataHeaderShortDefined.spec b 0).appended_blocks = bitsAt b 2 2 * 16 + bitsAt b 12 4 := by
  simp only [DmrDataHeader.DataHeaderShortRaw.appended_blocks, DmrDataHeader.DataHeaderShortStatusPrecoded.appended_blocks,
    DmrDataHeader.DataHeaderShortDefined.appended_blocks, DmrDataHeader.DataHeaderShortRaw.spec,
    DmrDataHeader.DataHeaderShortStatusPrecoded.spec, DmrDataHeader.DataHeaderShortDefined.spec, Nat.shiftLeft_eq,
    Nat.mul_zero, Nat.zero_add]
  norm_num

/-- C25: with at least 12 bytes every access, however many there are, returns the same contents, and the position of the
stream is the same after any number of accesses. -/
theorem C25_stable (b : Bytes) (h : 12 ≤ b.length) :
    ∃ o d, DmrDataHeader.objFromBytes b = .ok o ∧
      ∀ k, (accesses k o).1 = List.replicate k (.ok d) ∧ (accesses k o).2.io = o.io ∧ (accesses k o).2.attrs = o.attrs := by
  refine ⟨_, DmrDataHeader.bodySpec (u8 b 0 % 16) (b.take 12), objFromBytes_eq b (by omega), fun k => ?_⟩
  obtain ⟨a1, a2⟩ := accesses_good h k (o := { attrs := { skip4 := u8 b 0 / 16, data_packet_format := resolveEnum _ (u8 b 0 % 16) }
                                               m_data := none, raw_m_data := none
                                               io := { buf := b, pos := 1, bits := 0, bitsLeft := 0 } }) ⟨rfl, rfl, .inl rfl⟩
  refine ⟨a1, a2.2.1, ?_⟩
  have key : ∀ k o, (accesses k o).2.attrs = o.attrs := by
    intro k
    induction k with
    | zero => intro o; rfl
    | succ k ih =>
      intro o
      have : (DmrDataHeader.accessData o).2.attrs = o.attrs := by
        unfold DmrDataHeader.accessData
        simp only
        repeat' split
        all_goals rfl
      simp only [accesses, ih, this]
  exact key k _

/-- C25: with fewer than 12 bytes every access raises EOFError, in any number of accesses. -/
theorem C25_short (b : Bytes) (h1 : 1 ≤ b.length) (h : b.length < 12) :
    ∃ o, DmrDataHeader.objFromBytes b = .ok o ∧ ∀ k, (accesses k o).1 = List.replicate k (.error .eof) := by
  refine ⟨_, objFromBytes_eq b h1, fun k => ?_⟩
  have key : ∀ k (o : DmrDataHeader.Obj), o.m_data = none → o.io.buf = b →
      (accesses k o).1 = List.replicate k (.error .eof) := by
    intro k
    induction k with
    | zero => intros; rfl
    | succ k ih =>
      intro o hm hb
      obtain ⟨attrs, m, raw, ⟨buf, pos, bits, bl⟩⟩ := o
      simp only at hm hb
      subst hm; subst hb
      have : DmrDataHeader.accessData { attrs := attrs, m_data := none, raw_m_data := raw,
                                        io := { buf := buf, pos := pos, bits := bits, bitsLeft := bl } } =
          (.error .eof, { attrs := attrs, m_data := none, raw_m_data := raw,
                          io := { buf := buf, pos := buf.length, bits := 0, bitsLeft := 0 } }) := by
        unfold DmrDataHeader.accessData
        simp only [raw_read, if_neg (by omega : ¬ 12 ≤ buf.length)]
      simp only [accesses, this, List.replicate_succ]
      rw [ih _ rfl rfl]
  exact key k _ rfl rfl

/-- A confirmed data header, accessed three times. -/
example : ∃ o, DmrDataHeader.objFromBytes [0x43, 0x4A, 0, 0, 1, 0, 0, 2, 0x84, 0x00, 0xAB, 0xCD] = .ok o ∧
    (accesses 3 o).1.length = 3 := by
  obtain ⟨o, d, h, hk⟩ := C25_stable [0x43, 0x4A, 0, 0, 1, 0, 0, 2, 0x84, 0x00, 0xAB, 0xCD] (by decide)
  exact ⟨o, h, by rw [(hk 3).1]; rfl⟩
example : ∃ o, DmrDataHeader.objFromBytes [0x43, 0x4A] = .ok o ∧ (accesses 2 o).1 = [.error .eof, .error .eof] := by
  obtain ⟨o, h, hk⟩ := C25_short [0x43, 0x4A] (by decide) (by decide)
  exact ⟨o, h, hk 2⟩

end Dmr.Etsi
