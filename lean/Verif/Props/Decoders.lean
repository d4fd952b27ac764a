import Verif.Props.Encoders3
import Verif.Props.Lossless
/-
C53: the Hytera decoders accept exactly what a transmitter (`Verif/Spec/HyteraEncode.lean`) can write, followed by anything, and
give exactly what the transmitter wanted to say.
-/

set_option autoImplicit false

namespace Dmr.Wire

open Spec Hytera

/-! ### Fields of received octets -/

theorem toNat8 (b : Bytes) (q : Nat) : (BitVec.ofNat 8 (u8 b q)).toNat = u8 b q := by
  rw [BitVec.toNat_ofNat, Nat.mod_eq_of_lt (u8_lt b q)]

theorem toNat16 (b : Bytes) (q : Nat) : (BitVec.ofNat 16 (u16be b q)).toNat = u16be b q := by
  have h1 := u8_lt b q
  have h2 := u8_lt b (q + 1)
  rw [BitVec.toNat_ofNat, Nat.mod_eq_of_lt]
  unfold u16be
  omega

theorem toNat16le (b : Bytes) (q : Nat) : (BitVec.ofNat 16 (u16le b q)).toNat = u16le b q := by
  have h1 := u8_lt b q
  have h2 := u8_lt b (q + 1)
  rw [BitVec.toNat_ofNat, Nat.mod_eq_of_lt]
  unfold u16le
  omega

theorem toNat32 (b : Bytes) (q : Nat) : (BitVec.ofNat 32 (u32be b q)).toNat = u32be b q := by
  have h1 := u8_lt b q
  have h2 := u8_lt b (q + 1)
  have h3 := u8_lt b (q + 2)
  have h4 := u8_lt b (q + 3)
  rw [BitVec.toNat_ofNat, Nat.mod_eq_of_lt]
  unfold u32be
  omega

theorem toNat32le (b : Bytes) (q : Nat) : (BitVec.ofNat 32 (u32le b q)).toNat = u32le b q := by
  have h1 := u8_lt b q
  have h2 := u8_lt b (q + 1)
  have h3 := u8_lt b (q + 2)
  have h4 := u8_lt b (q + 3)
  rw [BitVec.toNat_ofNat, Nat.mod_eq_of_lt]
  unfold u32le
  omega

def Octets.at (b : Bytes) (q n : Nat) (h : q + n ≤ b.length) : Octets n := ⟨slice b q n, length_slice b q n h⟩

def Utf8.at {b : Bytes} {q n : Nat} (h : q + n ≤ b.length) {t : PyStr} (ht : decodeUtf8 (slice b q n) = some t) : Utf8 n :=
  ⟨t, by rw [(decodeUtf8_iff _ _).1 ht, length_slice b q n h]⟩

theorem len16le {b : Bytes} {q n : Nat} (h : q + n ≤ b.length) {t : PyStr} (ht : decodeUtf16le (slice b q n) = some t) :
    (encUtf16le t).length = n := by rw [(decodeUtf16le_iff _ _).1 ht, length_slice b q n h]

theorem len16be {b : Bytes} {q n : Nat} (h : q + n ≤ b.length) {t : PyStr} (ht : decodeUtf16be (slice b q n) = some t) :
    (encUtf16be t).length = n := by rw [(decodeUtf16be_iff _ _).1 ht, length_slice b q n h]

def Ip.at (b : Bytes) (q : Nat) : Ip :=
  ⟨.ofNat 8 (u8 b q), .ofNat 8 (u8 b (q + 1)), .ofNat 8 (u8 b (q + 2)), .ofNat 8 (u8 b (q + 3))⟩

theorem Ip.at_obj (b : Bytes) (q : Nat) : (Ip.at b q).obj = RadioIp.spec b q := by
  simp only [Ip.at, Ip.obj, RadioIp.spec, toNat8]

def Gps.at (b : Bytes) (q : Nat) (h : q + 40 ≤ b.length) : Gps where
  status := .at b q 1 (by omega)
  time := .at b (q + 1) 6 (by omega)
  date := .at b (q + 7) 6 (by omega)
  north_south := .at b (q + 13) 1 (by omega)
  latitude := .at b (q + 14) 9 (by omega)
  east_west := .at b (q + 23) 1 (by omega)
  longitude := .at b (q + 24) 10 (by omega)
  speed := .at b (q + 34) 3 (by omega)
  direction := .at b (q + 37) 3 (by omega)

theorem Gps.at_obj (b : Bytes) (q : Nat) (h : q + 40 ≤ b.length) : (Gps.at b q h).obj = Gpsdata.spec b q := rfl

theorem decodes_alone {α : Type} {r : Rd α} {w : Bytes} {x : α} (h : Decodes r w x) : parseAt r w 0 = .ok (x, w.length) := by
  have := h [] []
  simpa using this

/-- If the octets `w` decode to `x`, and so does `b`, then `b` begins with `w`. -/
theorem begins {d : Decoder} (hd : d ∈ losslessDecoders) {w b : Bytes} {x : d.Obj} (hw : parseAt d.read w 0 = .ok (x, w.length))
    (h : fromBytes d.read b = .ok x) : ∃ rest, b = w ++ rest := by
  obtain ⟨n, h1⟩ := parseAt_of_fromBytes h
  obtain ⟨l, e1, e2, h2, h3, h4⟩ := C43_equal_objects d hd b w 0 0 n _ x (Nat.zero_le _) (Nat.zero_le _) h1 hw
  have e3 : w.length = l := by simpa using e2
  refine ⟨b.drop l, ?_⟩
  simp only [slice, List.drop_zero] at h4
  rw [← e3, List.take_length] at h4
  rw [← h4, e3, List.take_append_drop]

theorem decodes_fromBytes {α : Type} {r : Rd α} {w : Bytes} {x : α} (h : Decodes r w x) (rest : Bytes) :
    fromBytes r (w ++ rest) = .ok x := by
  have h := h [] rest
  rw [List.nil_append, List.length_nil] at h
  rw [fromBytes_parseAt, h]
  rfl

/-! ### Location Protocol -/

/-- The opcodes of the location protocol. -/
def Lp.opcodes : List Nat :=
  [0xA001, 0xA002, 0xA003, 0xB001, 0xB002, 0xB003, 0xC001, 0xC002, 0xC003, 0xC004, 0xC005, 0xD001, 0xD002, 0xD003, 0xD004, 0xD011,
    0xD012]

/-- A message whose opcode is none of these consists of the header only. -/
def unknownLocation (opcode message_length : BitVec 16) : LocationProtocol where
  opcode_header := resolveEnum _ opcode.toNat
  message_length := message_length.toNat
  data := none

set_option hygiene false in
/-- The object is the one that the transmitter means. -/
macro "lp_same" hg:ident "[" xs:ident,* "]" : tactic => `(tactic| (
  rw [← $hg]
  simp only [Lp.obj, $[$xs:ident],*, Ip.at_obj, Gps.at_obj, toNat8, toNat16, toNat32, s16be_eq]))

theorem location_wf {b : Bytes} {q e : Nat} {x : LocationProtocol} (h : LocationProtocol.spec b q = .ok (x, e)) :
    (∃ msg n, x = Lp.message msg n) ∨ ∃ opcode n : BitVec 16, opcode.toNat ∉ Lp.opcodes ∧ x = unknownLocation opcode n := by
  unfold LocationProtocol.spec at h
  obtain ⟨h0, h⟩ := of_upTo_ok h
  obtain ⟨data, e', hd, he, h⟩ := of_next_ok h
  cases h
  unfold LocationProtocol.bodySpec at hd
  have key : ∀ msg : Lp, msg.opcode.toNat = u16be b q → data = some msg.obj →
      (∃ msg n, (⟨resolveEnum _ (u16be b q), u16be b (q + 2), data⟩ : LocationProtocol) = Lp.message msg n) := by
    intro msg h1 h2
    refine ⟨msg, .ofNat 16 (u16be b (q + 2)), ?_⟩
    rw [Lp.message, h1, toNat16, h2]
  by_cases hC002 : u16be b q = 0xC002
  · rw [if_pos hC002] at hd
    left
    obtain ⟨a, ha, hg⟩ := of_as_ok hd
    obtain ⟨rfl, -, hl⟩ := of_whole_ok ha
    refine key (.triggeredReportAnswer (.ofNat _ (u32be b (q + 4))) (.at b (q + 4 + 4)) (.ofNat _ (u16be b (q + 4 + 8)))) hC002.symm ?_
    lp_same hg [LocationProtocol.TriggeredReportAnswer.spec]
  rw [if_neg hC002] at hd
  by_cases hB001 : u16be b q = 0xB001
  · rw [if_pos hB001] at hd
    left
    obtain ⟨a, ha, hg⟩ := of_as_ok hd
    obtain ⟨rfl, -, hl⟩ := of_whole_ok ha
    refine key (.emergencyReportStopRequest (.ofNat _ (u32be b (q + 4))) (.at b (q + 4 + 4))) hB001.symm ?_
    lp_same hg [LocationProtocol.EmergencyReportStopRequest.spec]
  rw [if_neg hB001] at hd
  by_cases hD011 : u16be b q = 0xD011
  · rw [if_pos hD011] at hd
    left
    obtain ⟨a, ha, hg⟩ := of_as_ok hd
    obtain ⟨l0, ha⟩ := of_upTo_ok ha
    by_cases hc : u8 b (q + 4 + 8) = 1
    · rw [if_pos hc] at ha
      obtain ⟨p, e2, hp, -, ha⟩ := of_next_ok ha
      cases ha
      obtain ⟨l1, t1, d1, hp⟩ := of_textAt_ok hp
      obtain ⟨l2, t2, d2, hp⟩ := of_textAt_ok hp
      obtain ⟨l3, t3, d3, hp⟩ := of_textAt_ok hp
      obtain ⟨l4, hp⟩ := of_upTo_ok hp
      cases hp
      refine key (.quickGpsStart (.ofNat _ (u32be b (q + 4))) (.at b (q + 4 + 4)) (.at l1 d1) (.at l2 d2) (.at l3 d3) (.ofNat _ (u16be b (q + 4 + 9 + 36)))
        (.ofNat _ (u8 b (q + 4 + 9 + 38))) (.ofNat _ (u16be b (q + 4 + 9 + 39)))) hD011.symm ?_
      lp_same hg [Utf8.at, hc]
    · rw [if_neg hc] at ha
      cases ha
      refine key (.quickGpsOther (.ofNat _ (u32be b (q + 4))) (.at b (q + 4 + 4)) (.ofNat _ (u8 b (q + 4 + 8))) (by
        intro h1
        have := congrArg BitVec.toNat h1
        rw [toNat8] at this
        exact hc this)) hD011.symm ?_
      lp_same hg [Utf8.at]
  rw [if_neg hD011] at hd
  by_cases hD003 : u16be b q = 0xD003
  · rw [if_pos hD003] at hd
    left
    obtain ⟨a, ha, hg⟩ := of_as_ok hd
    obtain ⟨rfl, -, hl⟩ := of_whole_ok ha
    refine key (.conditionReport (.ofNat _ (u32be b (q + 4))) (.at b (q + 4 + 4)) (.at b (q + 4 + 8) (by omega))) hD003.symm ?_
    lp_same hg [LocationProtocol.ConditionReport.spec]
  rw [if_neg hD003] at hd
  by_cases hB002 : u16be b q = 0xB002
  · rw [if_pos hB002] at hd
    left
    obtain ⟨a, ha, hg⟩ := of_as_ok hd
    obtain ⟨rfl, -, hl⟩ := of_whole_ok ha
    refine key (.emergencyReportStopAnswer (.ofNat _ (u32be b (q + 4))) (.at b (q + 4 + 4)) (.ofNat _ (u16be b (q + 4 + 8)))) hB002.symm ?_
    lp_same hg [LocationProtocol.EmergencyReportStopAnswer.spec]
  rw [if_neg hB002] at hd
  by_cases hD002 : u16be b q = 0xD002
  · rw [if_pos hD002] at hd
    left
    obtain ⟨a, ha, hg⟩ := of_as_ok hd
    obtain ⟨rfl, -, hl⟩ := of_whole_ok ha
    refine key (.conditionReportAnswer (.ofNat _ (u32be b (q + 4))) (.at b (q + 4 + 4)) (.ofNat _ (u8 b (q + 4 + 8))) (.ofNat _ (u16be b (q + 4 + 9)))) hD002.symm ?_
    lp_same hg [LocationProtocol.ConditionReportAnswer.spec]
  rw [if_neg hD002] at hd
  by_cases hA002 : u16be b q = 0xA002
  · rw [if_pos hA002] at hd
    left
    obtain ⟨a, ha, hg⟩ := of_as_ok hd
    obtain ⟨rfl, -, hl⟩ := of_whole_ok ha
    refine key (.standardAnswer (.ofNat _ (u32be b (q + 4))) (.at b (q + 4 + 4)) (.ofNat _ (u16be b (q + 4 + 8))) (.at b (q + 4 + 10) (by omega))) hA002.symm ?_
    lp_same hg [LocationProtocol.StandardAnswer.spec]
  rw [if_neg hA002] at hd
  by_cases hA001 : u16be b q = 0xA001
  · rw [if_pos hA001] at hd
    left
    obtain ⟨a, ha, hg⟩ := of_as_ok hd
    obtain ⟨rfl, -, hl⟩ := of_whole_ok ha
    refine key (.standardRequest (.ofNat _ (u32be b (q + 4))) (.at b (q + 4 + 4))) hA001.symm ?_
    lp_same hg [LocationProtocol.StandardRequest.spec]
  rw [if_neg hA001] at hd
  by_cases hC003 : u16be b q = 0xC003
  · rw [if_pos hC003] at hd
    left
    obtain ⟨a, ha, hg⟩ := of_as_ok hd
    obtain ⟨l0, ha⟩ := of_upTo_ok ha
    obtain ⟨l1, t1, d1, ha⟩ := of_textAt_ok ha
    obtain ⟨l2, ha⟩ := of_upTo_ok ha
    cases ha
    refine key (.triggeredReport (.ofNat _ (u32be b (q + 4))) (.at b (q + 4 + 4)) (.at l1 d1) (.at b (q + 4 + 16) (by omega))) hC003.symm ?_
    lp_same hg [Utf8.at]
  rw [if_neg hC003] at hd
  by_cases hC005 : u16be b q = 0xC005
  · rw [if_pos hC005] at hd
    left
    obtain ⟨a, ha, hg⟩ := of_as_ok hd
    obtain ⟨rfl, -, hl⟩ := of_whole_ok ha
    refine key (.triggeredReportStopAnswer (.ofNat _ (u32be b (q + 4))) (.at b (q + 4 + 4)) (.ofNat _ (u16be b (q + 4 + 8)))) hC005.symm ?_
    lp_same hg [LocationProtocol.TriggeredReportStopAnswer.spec]
  rw [if_neg hC005] at hd
  by_cases hA003 : u16be b q = 0xA003
  · rw [if_pos hA003] at hd
    left
    obtain ⟨a, ha, hg⟩ := of_as_ok hd
    obtain ⟨rfl, -, hl⟩ := of_whole_ok ha
    refine key (.standardAnswerWithRssi (.ofNat _ (u32be b (q + 4))) (.at b (q + 4 + 4)) (.ofNat _ (u16be b (q + 4 + 8))) (.at b (q + 4 + 10) (by omega)) (.ofNat _ (u16be b (q + 4 + 50)))) hA003.symm ?_
    lp_same hg [LocationProtocol.StandardAnswerWithRssi.spec]
  rw [if_neg hA003] at hd
  by_cases hD004 : u16be b q = 0xD004
  · rw [if_pos hD004] at hd
    left
    obtain ⟨a, ha, hg⟩ := of_as_ok hd
    obtain ⟨rfl, -, hl⟩ := of_whole_ok ha
    refine key (.conditionReportWithRssi (.ofNat _ (u32be b (q + 4))) (.at b (q + 4 + 4)) (.ofNat _ (u16be b (q + 4 + 8))) (.at b (q + 4 + 10) (by omega)) (.ofNat _ (u16be b (q + 4 + 50)))) hD004.symm ?_
    lp_same hg [LocationProtocol.ConditionReportWithRssi.spec]
  rw [if_neg hD004] at hd
  by_cases hC004 : u16be b q = 0xC004
  · rw [if_pos hC004] at hd
    left
    obtain ⟨a, ha, hg⟩ := of_as_ok hd
    obtain ⟨rfl, -, hl⟩ := of_whole_ok ha
    refine key (.triggeredReportStopRequest (.ofNat _ (u32be b (q + 4))) (.at b (q + 4 + 4))) hC004.symm ?_
    lp_same hg [LocationProtocol.TriggeredReportStopRequest.spec]
  rw [if_neg hC004] at hd
  by_cases hB003 : u16be b q = 0xB003
  · rw [if_pos hB003] at hd
    left
    obtain ⟨a, ha, hg⟩ := of_as_ok hd
    obtain ⟨rfl, -, hl⟩ := of_whole_ok ha
    refine key (.emergencyReport (.at b (q + 4)) (.ofNat _ (u8 b (q + 4 + 4))) (.at b (q + 4 + 5) (by omega))) hB003.symm ?_
    lp_same hg [LocationProtocol.EmergencyReport.spec]
  rw [if_neg hB003] at hd
  by_cases hD001 : u16be b q = 0xD001
  · rw [if_pos hD001] at hd
    left
    obtain ⟨a, ha, hg⟩ := of_as_ok hd
    obtain ⟨l0, ha⟩ := of_upTo_ok ha
    obtain ⟨l1, t1, d1, ha⟩ := of_textAt_ok ha
    obtain ⟨l2, t2, d2, ha⟩ := of_textAt_ok ha
    obtain ⟨l3, t3, d3, ha⟩ := of_textAt_ok ha
    obtain ⟨l4, t4, d4, ha⟩ := of_textAt_ok ha
    cases ha
    refine key (.conditionReportRequest (.ofNat _ (u32be b (q + 4))) (.at b (q + 4 + 4)) (.ofNat _ (u8 b (q + 4 + 8))) (.ofNat _ (u32be b (q + 4 + 9))) (.at l1 d1) (.at l2 d2) (.at l3 d3) (.at l4 d4)) hD001.symm ?_
    lp_same hg [Utf8.at]
  rw [if_neg hD001] at hd
  by_cases hC001 : u16be b q = 0xC001
  · rw [if_pos hC001] at hd
    left
    obtain ⟨a, ha, hg⟩ := of_as_ok hd
    obtain ⟨l0, ha⟩ := of_upTo_ok ha
    obtain ⟨l1, t1, d1, ha⟩ := of_textAt_ok ha
    obtain ⟨l2, t2, d2, ha⟩ := of_textAt_ok ha
    obtain ⟨l3, t3, d3, ha⟩ := of_textAt_ok ha
    cases ha
    refine key (.triggeredReportRequest (.ofNat _ (u32be b (q + 4))) (.at b (q + 4 + 4)) (.at l1 d1) (.at l2 d2) (.at l3 d3)) hC001.symm ?_
    lp_same hg [Utf8.at]
  rw [if_neg hC001] at hd
  by_cases hD012 : u16be b q = 0xD012
  · rw [if_pos hD012] at hd
    left
    obtain ⟨a, ha, hg⟩ := of_as_ok hd
    obtain ⟨rfl, -, hl⟩ := of_whole_ok ha
    refine key (.quickGpsAnswer (.ofNat _ (u32be b (q + 4))) (.at b (q + 4 + 4)) (.ofNat _ (u8 b (q + 4 + 8))) (.ofNat _ (u16be b (q + 4 + 9)))) hD012.symm ?_
    lp_same hg [LocationProtocol.ConditionQuickGpsAnswer.spec]
  rw [if_neg hD012] at hd
  cases hd
  refine .inr ⟨.ofNat 16 (u16be b q), .ofNat 16 (u16be b (q + 2)), ?_, ?_⟩
  · rw [toNat16]
    simp only [Lp.opcodes, List.mem_cons, List.not_mem_nil, or_false, not_or]
    exact ⟨hA001, hA002, hA003, hB001, hB002, hB003, hC001, hC002, hC003, hC004, hC005, hD001, hD002, hD003, hD004, hD011, hD012⟩
  · rw [unknownLocation, toNat16, toNat16]

theorem unknownLocation_spec (opcode n : BitVec 16) (h : opcode.toNat ∉ Lp.opcodes) :
    LocationProtocol.spec (pack f[opcode, n]) 0 = .ok (unknownLocation opcode n, (pack f[opcode, n]).length) := by
  rw [← List.append_nil (pack _)]
  packed
  rw [List.length_nil, Nat.add_zero] at hl
  have h0 : u16be m 0 = opcode.toNat := (u16be_bits m 0 (by omega)).trans hf.1
  have h1 : u16be m 2 = n.toNat := (u16be_bits m 2 (by omega)).trans hf.2
  simp only [Lp.opcodes, List.mem_cons, List.not_mem_nil, or_false, not_or] at h
  simp only [LocationProtocol.spec, upTo, LocationProtocol.bodySpec, h0, h1, Nat.zero_add, h, ↓reduceIte, next, hl, Nat.le_refl]
  rfl

/-- C53: `LocationProtocol.from_bytes(b)` returns `x` exactly if `b` begins with a location message that means `x`, or with the
header of an unknown one. -/
theorem C53_location (b : Bytes) (x : LocationProtocol) :
    fromBytes LocationProtocol.read b = .ok x ↔
      (∃ (msg : Lp) (message_length : BitVec 16) (rest : Bytes), b = msg.bytes message_length ++ rest ∧ x = msg.message message_length) ∨
      ∃ (opcode message_length : BitVec 16) (rest : Bytes), opcode.toNat ∉ Lp.opcodes ∧ b = pack f[opcode, message_length] ++ rest ∧
        x = unknownLocation opcode message_length := by
  have hu : ∀ opcode n : BitVec 16, opcode.toNat ∉ Lp.opcodes → Decodes LocationProtocol.read (pack f[opcode, n]) (unknownLocation opcode n) :=
    fun opcode n h => decodes_of LocationProtocol.read_local LocationProtocol.parses (unknownLocation_spec opcode n h)
  constructor
  · intro h
    have hs := h
    rw [LocationProtocol.parses.fromBytes] at hs
    obtain ⟨e, hs⟩ := of_map_fst_ok hs
    rcases location_wf hs with ⟨msg, n, rfl⟩ | ⟨opcode, n, ho, rfl⟩
    · obtain ⟨rest, hr⟩ := begins (d := ⟨"Hytera.LocationProtocol", _, LocationProtocol.read⟩)
        (List.mem_of_getElem? (i := 115) rfl) (decodes_alone (C52_location msg n)) h
      exact .inl ⟨msg, n, rest, hr, rfl⟩
    · obtain ⟨rest, hr⟩ := begins (d := ⟨"Hytera.LocationProtocol", _, LocationProtocol.read⟩)
        (List.mem_of_getElem? (i := 115) rfl) (decodes_alone (hu opcode n ho)) h
      exact .inr ⟨opcode, n, rest, ho, hr, rfl⟩
  · rintro (⟨msg, n, rest, rfl, rfl⟩ | ⟨opcode, n, rest, ho, rfl, rfl⟩)
    · exact decodes_fromBytes (C52_location msg n) rest
    · exact decodes_fromBytes (hu opcode n ho) rest

/-! ### Registration, delivery states -/

theorem delivery_wf (b : Bytes) (q : Nat) (h : q + 11 ≤ b.length) : ∃ x : Dds, DataDeliveryStates.spec b q = x.message := by
  refine ⟨⟨.at b q 1 (by omega), .ofNat _ (u8 b (q + 1)), .ofNat _ (u16be b (q + 2)), .at b (q + 4), .ofNat _ (u16be b (q + 8)),
    .ofNat _ (u8 b (q + 10))⟩, ?_⟩
  simp only [DataDeliveryStates.spec, Dds.message, Octets.at, Ip.at_obj, toNat8, toNat16]

theorem registration_wf {b : Bytes} {q e : Nat} {x : RadioRegistrationService} (h : RadioRegistrationService.spec b q = .ok (x, e)) :
    ∃ msg : Rrs, x = msg.message := by
  unfold RadioRegistrationService.spec at h
  obtain ⟨h0, h1, h⟩ := of_fixedAt_ok h
  obtain ⟨-, h⟩ := of_upTo_ok h
  simp only [List.length_cons, List.length_nil, Nat.zero_add] at h1
  by_cases h80 : u8 b (q + 1) = 0x80
  · rw [if_pos h80] at h
    obtain ⟨-, h⟩ := of_upTo_ok h
    cases h
    refine ⟨.registrationAck (.ofNat _ (u16be b (q + 2))) (.at b (q + 4)) (.ofNat _ (u8 b (q + 8))) (.ofNat _ (u32be b (q + 9))), ?_⟩
    simp only [Rrs.message, Ip.at_obj, toNat8, toNat16, toNat32, h1, h80]
  rw [if_neg h80] at h
  by_cases h82 : u8 b (q + 1) = 0x82
  · rw [if_pos h82] at h
    obtain ⟨-, h⟩ := of_upTo_ok h
    cases h
    refine ⟨.onlineCheckAck (.ofNat _ (u16be b (q + 2))) (.at b (q + 4)) (.ofNat _ (u8 b (q + 8))), ?_⟩
    simp only [Rrs.message, Ip.at_obj, toNat8, toNat16, h1, h82]
  rw [if_neg h82] at h
  cases h
  have key : ∀ k, u8 b (q + 1) ≠ k → k < 256 → BitVec.ofNat 8 (u8 b (q + 1)) ≠ BitVec.ofNat 8 k := by
    intro k h1 h2 h3
    have := congrArg BitVec.toNat h3
    rw [toNat8, BitVec.toNat_ofNat, Nat.mod_eq_of_lt h2] at this
    exact h1 this
  refine ⟨.other (.ofNat _ (u8 b (q + 1))) (.ofNat _ (u16be b (q + 2))) (.at b (q + 4)) (key _ h80 (by decide)) (key _ h82 (by decide)), ?_⟩
  simp only [Rrs.message, Ip.at_obj, toNat8, toNat16, h1]

/-- C53: registration messages. -/
theorem C53_registration (b : Bytes) (x : RadioRegistrationService) :
    fromBytes RadioRegistrationService.read b = .ok x ↔ ∃ (msg : Rrs) (rest : Bytes), b = msg.bytes ++ rest ∧ x = msg.message := by
  constructor
  · intro h
    have hs := h
    rw [RadioRegistrationService.parses.fromBytes] at hs
    obtain ⟨e, hs⟩ := of_map_fst_ok hs
    obtain ⟨msg, rfl⟩ := registration_wf hs
    obtain ⟨rest, hr⟩ := begins (d := ⟨"Hytera.RadioRegistrationService", _, RadioRegistrationService.read⟩)
      (List.mem_of_getElem? (i := 79) rfl) (decodes_alone (C52_registration msg)) h
    exact ⟨msg, rest, hr, rfl⟩
  · rintro ⟨msg, rest, rfl, rfl⟩
    exact decodes_fromBytes (C52_registration msg) rest

/-- C53: delivery states. -/
theorem C53_delivery (b : Bytes) (x : DataDeliveryStates) :
    fromBytes DataDeliveryStates.read b = .ok x ↔ ∃ (msg : Dds) (rest : Bytes), b = msg.bytes ++ rest ∧ x = msg.message := by
  constructor
  · intro h
    have hs := h
    rw [DataDeliveryStates.fixed.fromBytes] at hs
    obtain ⟨msg, hm⟩ : ∃ msg : Dds, x = msg.message := by
      split at hs
      · cases hs
        obtain ⟨msg, hm⟩ := delivery_wf b 0 (by omega)
        exact ⟨msg, hm⟩
      · cases hs
    subst hm
    obtain ⟨rest, hr⟩ := begins (d := ⟨"Hytera.DataDeliveryStates", _, DataDeliveryStates.read⟩)
      (List.mem_of_getElem? (i := 70) rfl) (decodes_alone (C52_delivery msg)) h
    exact ⟨msg, rest, hr, rfl⟩
  · rintro ⟨msg, rest, rfl, rfl⟩
    exact decodes_fromBytes (C52_delivery msg) rest

/-! ### Telemetry -/

/-- The opcodes of the telemetry protocol. -/
def Tp.opcodes : List Nat := [0xA001, 0xA081, 0xA082, 0xB001, 0xB081]

/-- A message whose opcode is none of these consists of the header only. -/
def unknownTelemetry (service specific : BitVec 8) (message_length : BitVec 16) : TelemetryProtocol where
  service_type_opcode := resolveEnum _ service.toNat
  specific_service_opcode := specific.toNat
  message_length := message_length.toNat
  m_specific_service := resolveEnum _ (256 * service.toNat + specific.toNat)
  data := none

def TpHead.at (b : Bytes) (q : Nat) (h : q + 11 ≤ b.length) : TpHead :=
  ⟨.at b q, .at b (q + 4), .ofNat _ (u8 b (q + 8)), .ofNat _ (u8 b (q + 9)), .at b (q + 10) 1 (by omega)⟩

set_option hygiene false in
macro "tp_same" hg:ident "[" xs:ident,* "]" : tactic => `(tactic| (
  rw [← $hg]
  simp only [Tp.obj, TpHead.at, Octets.at, $[$xs:ident],*, Ip.at_obj, toNat8, toNat16]))

theorem telemetry_wf {b : Bytes} {e : Nat} {x : TelemetryProtocol} (h : TelemetryProtocol.spec b 0 = .ok (x, e)) :
    (∃ msg n, x = Tp.message msg n) ∨ ∃ (service specific : BitVec 8) (n : BitVec 16),
      256 * service.toNat + specific.toNat ∉ Tp.opcodes ∧ x = unknownTelemetry service specific n := by
  unfold TelemetryProtocol.spec at h
  obtain ⟨h0, h⟩ := of_upTo_ok h
  obtain ⟨data, e', hd, he, h⟩ := of_next_ok h
  cases h
  unfold TelemetryProtocol.bodySpec at hd
  have b0 := u8_lt b 0
  have b1 := u8_lt b 1
  have hu : u16be b 0 = 256 * u8 b 0 + u8 b 1 := by unfold u16be; rw [Nat.zero_add]; omega
  rw [hu] at hd ⊢
  have key : ∀ msg : Tp, 256 * msg.opcode.1.toNat + msg.opcode.2.toNat = 256 * u8 b 0 + u8 b 1 → data = some msg.obj →
      (∃ msg n, (⟨resolveEnum _ (u8 b 0), u8 b (0 + 1), u16be b (0 + 2), resolveEnum _ (256 * u8 b 0 + u8 b 1), data⟩ : TelemetryProtocol) =
        Tp.message msg n) := by
    intro msg h1 h2
    refine ⟨msg, .ofNat 16 (u16be b (0 + 2)), ?_⟩
    have l1 := msg.opcode.1.isLt
    have l2 := msg.opcode.2.isLt
    rw [Tp.message, h1, toNat16, h2, show msg.opcode.1.toNat = u8 b 0 by omega, show msg.opcode.2.toNat = u8 b (0 + 1) by rw [Nat.zero_add]; omega]
  by_cases hA001 : 256 * u8 b 0 + u8 b 1 = 0xA001
  · rw [if_pos hA001] at hd
    left
    obtain ⟨a, ha, hg⟩ := of_as_ok hd
    obtain ⟨rfl, -, hl⟩ := of_whole_ok ha
    refine key (.standardStatusRequest (.at b 4 (by omega))) hA001.symm ?_
    tp_same hg [TelemetryProtocol.StandardStatusRequest.spec]
  rw [if_neg hA001] at hd
  by_cases hB081 : 256 * u8 b 0 + u8 b 1 = 0xB081
  · rw [if_pos hB081] at hd
    left
    obtain ⟨a, ha, hg⟩ := of_as_ok hd
    obtain ⟨rfl, -, hl⟩ := of_whole_ok ha
    refine key (.remoteControlAnswer (.at b 4 (by omega)) (.ofNat _ (u8 b (4 + 11)))) hB081.symm ?_
    tp_same hg [TelemetryProtocol.RemoteControlAnswer.spec]
  rw [if_neg hB081] at hd
  by_cases hA082 : 256 * u8 b 0 + u8 b 1 = 0xA082
  · rw [if_pos hA082] at hd
    left
    obtain ⟨a, ha, hg⟩ := of_as_ok hd
    obtain ⟨l0, ha⟩ := of_upTo_ok ha
    obtain ⟨st, e2, hst, -, ha⟩ := of_next_ok ha
    cases ha
    obtain ⟨l1, hst⟩ := of_upTo_ok hst
    obtain ⟨l2, t, ht, hst⟩ := of_textAt_ok hst
    cases hst
    refine key (.extendedStatusReport (.at b 4 (by omega)) (.ofNat _ (u8 b (4 + 11))) (.ofNat _ (u16be b (4 + 11 + 1))) t ?_) hA082.symm ?_
    · rw [toNat16]; exact len16le l2 ht
    tp_same hg [List.append_nil]
  rw [if_neg hA082] at hd
  by_cases hB001 : 256 * u8 b 0 + u8 b 1 = 0xB001
  · rw [if_pos hB001] at hd
    left
    obtain ⟨a, ha, hg⟩ := of_as_ok hd
    obtain ⟨rfl, -, hl⟩ := of_whole_ok ha
    refine key (.remoteControlRequest (.at b 4 (by omega)) (.ofNat _ (u8 b (4 + 11)))) hB001.symm ?_
    tp_same hg [TelemetryProtocol.RemoteControlRequest.spec]
  rw [if_neg hB001] at hd
  by_cases hA081 : 256 * u8 b 0 + u8 b 1 = 0xA081
  · rw [if_pos hA081] at hd
    left
    obtain ⟨a, ha, hg⟩ := of_as_ok hd
    obtain ⟨rfl, -, hl⟩ := of_whole_ok ha
    refine key (.standardStatusReport (.at b 4 (by omega)) (.ofNat _ (u8 b (4 + 11)))) hA081.symm ?_
    tp_same hg [TelemetryProtocol.StandardStatusReport.spec]
  rw [if_neg hA081] at hd
  cases hd
  refine .inr ⟨.ofNat 8 (u8 b 0), .ofNat 8 (u8 b 1), .ofNat 16 (u16be b 2), ?_, ?_⟩
  · rw [toNat8, toNat8]
    simp only [Tp.opcodes, List.mem_cons, List.not_mem_nil, or_false, not_or]
    exact ⟨hA001, hA081, hA082, hB001, hB081⟩
  · rw [unknownTelemetry, toNat8, toNat8, toNat16]

theorem unknownTelemetry_spec (service specific : BitVec 8) (n : BitVec 16) (h : 256 * service.toNat + specific.toNat ∉ Tp.opcodes) :
    TelemetryProtocol.spec (pack f[service, specific, n]) 0 =
      .ok (unknownTelemetry service specific n, (pack f[service, specific, n]).length) := by
  rw [← List.append_nil (pack _)]
  packed
  rw [List.length_nil, Nat.add_zero] at hl
  have h0 : u8 m 0 = service.toNat := (u8_bits m 0 (by omega)).trans hf.1
  have h1 : u8 m 1 = specific.toNat := (u8_bits m 1 (by omega)).trans hf.2.1
  have h2 : u16be m 2 = n.toNat := (u16be_bits m 2 (by omega)).trans hf.2.2
  have hu : u16be m 0 = 256 * service.toNat + specific.toNat := by rw [u16be, h0, show 0 + 1 = 1 from rfl, h1]; omega
  simp only [Tp.opcodes, List.mem_cons, List.not_mem_nil, or_false, not_or] at h
  simp only [TelemetryProtocol.spec, upTo, TelemetryProtocol.bodySpec, h0, h1, h2, hu, Nat.zero_add, h, ↓reduceIte, next, hl,
    Nat.le_refl]
  rfl

/-- C53: telemetry messages. -/
theorem C53_telemetry (b : Bytes) (x : TelemetryProtocol) :
    fromBytes TelemetryProtocol.read b = .ok x ↔
      (∃ (msg : Tp) (message_length : BitVec 16) (rest : Bytes), b = msg.bytes message_length ++ rest ∧ x = msg.message message_length) ∨
      ∃ (service specific : BitVec 8) (message_length : BitVec 16) (rest : Bytes),
        256 * service.toNat + specific.toNat ∉ Tp.opcodes ∧ b = pack f[service, specific, message_length] ++ rest ∧
        x = unknownTelemetry service specific message_length := by
  have hk : ∀ (msg : Tp) (n : BitVec 16), parseAt TelemetryProtocol.read (msg.bytes n) 0 = .ok (msg.message n, (msg.bytes n).length) := by
    intro msg n
    have := C52_telemetry msg n []
    rwa [List.append_nil] at this
  have hu : ∀ (s t : BitVec 8) (n : BitVec 16), 256 * s.toNat + t.toNat ∉ Tp.opcodes →
      parseAt TelemetryProtocol.read (pack f[s, t, n]) 0 = .ok (unknownTelemetry s t n, (pack f[s, t, n]).length) :=
    fun s t n h => (TelemetryProtocol.parses.parseAt _ _ (Nat.zero_le _)).trans (unknownTelemetry_spec s t n h)
  constructor
  · intro h
    have hs := h
    rw [TelemetryProtocol.parses.fromBytes] at hs
    obtain ⟨e, hs⟩ := of_map_fst_ok hs
    rcases telemetry_wf hs with ⟨msg, n, rfl⟩ | ⟨s, t, n, ho, rfl⟩
    · obtain ⟨rest, hr⟩ := begins (d := ⟨"Hytera.TelemetryProtocol", _, TelemetryProtocol.read⟩)
        (List.mem_of_getElem? (i := 86) rfl) (hk msg n) h
      exact .inl ⟨msg, n, rest, hr, rfl⟩
    · obtain ⟨rest, hr⟩ := begins (d := ⟨"Hytera.TelemetryProtocol", _, TelemetryProtocol.read⟩)
        (List.mem_of_getElem? (i := 86) rfl) (hu s t n ho) h
      exact .inr ⟨s, t, n, rest, ho, hr, rfl⟩
  · rintro (⟨msg, n, rest, rfl, rfl⟩ | ⟨s, t, n, rest, ho, rfl, rfl⟩)
    · exact C41_trailing ⟨"Hytera.TelemetryProtocol", _, TelemetryProtocol.read⟩ (by simp [pduDecoders]) _ _
        (by rw [fromBytes_parseAt, hk]; rfl) rest
    · exact C41_trailing ⟨"Hytera.TelemetryProtocol", _, TelemetryProtocol.read⟩ (by simp [pduDecoders]) _ _
        (by rw [fromBytes_parseAt, hu s t n ho]; rfl) rest

/-! ### File transfer -/

/-- The message kinds of the file transfer protocol. -/
def Dtp.kinds : List Nat := [0x01, 0x02, 0x03, 0x11, 0x12, 0x13]

/-- A message of another kind consists of the header only. -/
def unknownTransmit (service_type kind : BitVec 8) (message_length : BitVec 16) : DataTransmitProtocol where
  service_type := resolveEnum _ service_type.toNat
  service_specific_type := resolveEnum _ kind.toNat
  message_length := message_length.toNat
  data := none

theorem transmit_wf {b : Bytes} {q e : Nat} {x : DataTransmitProtocol} (h : DataTransmitProtocol.spec b q = .ok (x, e)) :
    (∃ service_type msg, x = Dtp.message service_type msg) ∨ ∃ (service_type kind : BitVec 8) (n : BitVec 16),
      kind.toNat ∉ Dtp.kinds ∧ x = unknownTransmit service_type kind n := by
  unfold DataTransmitProtocol.spec at h
  obtain ⟨h0, h⟩ := of_upTo_ok h
  obtain ⟨data, e', hd, he, h⟩ := of_next_ok h
  cases h
  unfold DataTransmitProtocol.bodySpec at hd
  by_cases h01 : u8 b (q + 1) = 0x01
  · rw [if_pos h01] at hd
    left
    obtain ⟨a, ha, rfl⟩ := of_as_ok hd
    obtain ⟨l0, ha⟩ := of_upTo_ok ha
    obtain ⟨l1, l2, ha⟩ := of_sizedAt_ok ha
    obtain ⟨t, ht, ha⟩ := of_decoded_ok ha
    cases ha
    refine ⟨.ofNat _ (u8 b q), .request (.ofNat _ (u16be b (q + 2))) (.at b (q + 4)) (.at b (q + 4 + 4)) (.ofNat _ (u16be b (q + 4 + 8))) t ?_, ?_⟩
    · rw [toNat16, len16le l2 ht]; omega
    · simp only [Dtp.message, Ip.at_obj, toNat8, toNat16, h01]
  rw [if_neg h01] at hd
  by_cases h02 : u8 b (q + 1) = 0x02
  · rw [if_pos h02] at hd
    left
    obtain ⟨a, ha, rfl⟩ := of_as_ok hd
    obtain ⟨l0, ha⟩ := of_upTo_ok ha
    obtain ⟨l1, l2, ha⟩ := of_sizedAt_ok ha
    cases ha
    refine ⟨.ofNat _ (u8 b q), .slice (.ofNat _ (u16be b (q + 2))) (.at b (q + 4)) (.at b (q + 4 + 4)) (.ofNat _ (u16be b (q + 4 + 8)))
      (slice b (q + 4 + 10) (Int.toNat ((u16be b (q + 2) : Int) - 10))) ?_, ?_⟩
    · rw [toNat16, length_slice _ _ _ l2]; omega
    · simp only [Dtp.message, Ip.at_obj, toNat8, toNat16, h02]
  rw [if_neg h02] at hd
  by_cases h12 : u8 b (q + 1) = 0x12
  · rw [if_pos h12] at hd
    left
    obtain ⟨a, ha, rfl⟩ := of_as_ok hd
    obtain ⟨rfl, -, hl⟩ := of_whole_ok ha
    refine ⟨.ofNat _ (u8 b q), .sliceAnswer (.ofNat _ (u16be b (q + 2))) (.at b (q + 4)) (.at b (q + 4 + 4)) (.ofNat _ (u16be b (q + 4 + 8)))
      (.ofNat _ (u8 b (q + 4 + 10))), ?_⟩
    simp only [Dtp.message, DataTransmitProtocol.DataSliceAnswer.spec, Ip.at_obj, toNat8, toNat16, h12]
  rw [if_neg h12] at hd
  by_cases h13 : u8 b (q + 1) = 0x13
  · rw [if_pos h13] at hd
    left
    obtain ⟨a, ha, rfl⟩ := of_as_ok hd
    obtain ⟨rfl, -, hl⟩ := of_whole_ok ha
    refine ⟨.ofNat _ (u8 b q), .lastSliceAnswer (.ofNat _ (u16be b (q + 2))) (.at b (q + 4)) (.at b (q + 4 + 4))
      (.ofNat _ (u8 b (q + 4 + 8))), ?_⟩
    simp only [Dtp.message, DataTransmitProtocol.LastDataSliceAnswer.spec, Ip.at_obj, toNat8, toNat16, h13]
  rw [if_neg h13] at hd
  by_cases h11 : u8 b (q + 1) = 0x11
  · rw [if_pos h11] at hd
    left
    obtain ⟨a, ha, rfl⟩ := of_as_ok hd
    obtain ⟨rfl, -, hl⟩ := of_whole_ok ha
    refine ⟨.ofNat _ (u8 b q), .requestAnswer (.ofNat _ (u16be b (q + 2))) (.at b (q + 4)) (.at b (q + 4 + 4))
      (.ofNat _ (u8 b (q + 4 + 8))), ?_⟩
    simp only [Dtp.message, DataTransmitProtocol.DtpAnswer.spec, Ip.at_obj, toNat8, toNat16, h11]
  rw [if_neg h11] at hd
  by_cases h03 : u8 b (q + 1) = 0x03
  · rw [if_pos h03] at hd
    left
    obtain ⟨a, ha, rfl⟩ := of_as_ok hd
    obtain ⟨rfl, -, hl⟩ := of_whole_ok ha
    refine ⟨.ofNat _ (u8 b q), .lastSlice (.ofNat _ (u16be b (q + 2))) (.at b (q + 4)) (.at b (q + 4 + 4)), ?_⟩
    simp only [Dtp.message, DataTransmitProtocol.LastDataSlice.spec, Ip.at_obj, toNat8, toNat16, h03]
  rw [if_neg h03] at hd
  cases hd
  refine .inr ⟨.ofNat 8 (u8 b q), .ofNat 8 (u8 b (q + 1)), .ofNat 16 (u16be b (q + 2)), ?_, ?_⟩
  · rw [toNat8]
    simp only [Dtp.kinds, List.mem_cons, List.not_mem_nil, or_false, not_or]
    exact ⟨h01, h02, h03, h11, h12, h13⟩
  · rw [unknownTransmit, toNat8, toNat8, toNat16]

theorem unknownTransmit_spec (s k : BitVec 8) (n : BitVec 16) (h : k.toNat ∉ Dtp.kinds) :
    DataTransmitProtocol.spec (pack f[s, k, n]) 0 = .ok (unknownTransmit s k n, (pack f[s, k, n]).length) := by
  rw [← List.append_nil (pack _)]
  packed
  rw [List.length_nil, Nat.add_zero] at hl
  have h0 : u8 m 0 = s.toNat := (u8_bits m 0 (by omega)).trans hf.1
  have h1 : u8 m 1 = k.toNat := (u8_bits m 1 (by omega)).trans hf.2.1
  have h2 : u16be m 2 = n.toNat := (u16be_bits m 2 (by omega)).trans hf.2.2
  simp only [Dtp.kinds, List.mem_cons, List.not_mem_nil, or_false, not_or] at h
  simp only [DataTransmitProtocol.spec, upTo, DataTransmitProtocol.bodySpec, h0, h1, h2, Nat.zero_add, h, ↓reduceIte, next, hl,
    Nat.le_refl]
  rfl

/-- C53: file transfer messages. -/
theorem C53_transmit (b : Bytes) (x : DataTransmitProtocol) :
    fromBytes DataTransmitProtocol.read b = .ok x ↔
      (∃ (service_type : BitVec 8) (msg : Dtp) (rest : Bytes), b = msg.bytes service_type ++ rest ∧ x = msg.message service_type) ∨
      ∃ (service_type kind : BitVec 8) (message_length : BitVec 16) (rest : Bytes), kind.toNat ∉ Dtp.kinds ∧
        b = pack f[service_type, kind, message_length] ++ rest ∧ x = unknownTransmit service_type kind message_length := by
  have hu : ∀ (s k : BitVec 8) (n : BitVec 16), k.toNat ∉ Dtp.kinds →
      Decodes DataTransmitProtocol.read (pack f[s, k, n]) (unknownTransmit s k n) :=
    fun s k n h => decodes_of DataTransmitProtocol.read_local DataTransmitProtocol.parses (unknownTransmit_spec s k n h)
  constructor
  · intro h
    have hs := h
    rw [DataTransmitProtocol.parses.fromBytes] at hs
    obtain ⟨e, hs⟩ := of_map_fst_ok hs
    rcases transmit_wf hs with ⟨s, msg, rfl⟩ | ⟨s, k, n, ho, rfl⟩
    · obtain ⟨rest, hr⟩ := begins (d := ⟨"Hytera.DataTransmitProtocol", _, DataTransmitProtocol.read⟩)
        (List.mem_of_getElem? (i := 75) rfl) (decodes_alone (C52_transmit s msg)) h
      exact .inl ⟨s, msg, rest, hr, rfl⟩
    · obtain ⟨rest, hr⟩ := begins (d := ⟨"Hytera.DataTransmitProtocol", _, DataTransmitProtocol.read⟩)
        (List.mem_of_getElem? (i := 75) rfl) (decodes_alone (hu s k n ho)) h
      exact .inr ⟨s, k, n, rest, ho, hr, rfl⟩
  · rintro (⟨s, msg, rest, rfl, rfl⟩ | ⟨s, k, n, rest, ho, rfl, rfl⟩)
    · exact decodes_fromBytes (C52_transmit s msg) rest
    · exact decodes_fromBytes (hu s k n ho) rest

/-! ### Radio control -/

theorem control_wf {b : Bytes} {q e : Nat} {x : RadioControlProtocol} (h : RadioControlProtocol.spec b q = .ok (x, e)) :
    ∃ msg : Rcp, x = msg.message := by
  unfold RadioControlProtocol.spec at h
  obtain ⟨h0, h⟩ := of_upTo_ok h
  obtain ⟨data, e', hd, he, h⟩ := of_next_ok h
  cases h
  unfold RadioControlProtocol.bodySpec at hd
  by_cases h8841 : u16le b q = 0x8841
  · rw [if_pos h8841] at hd
    obtain ⟨a, ha, rfl⟩ := of_as_ok hd
    obtain ⟨rfl, -, hl⟩ := of_whole_ok ha
    refine ⟨.callReply (.ofNat _ (u16le b (q + 2))) (.ofNat _ (u8 b (q + 4))), ?_⟩
    simp only [Rcp.message, RadioControlProtocol.CallReply.spec, toNat8, toNat16le, h8841]
  rw [if_neg h8841] at hd
  by_cases h82D4 : u16le b q = 0x82D4
  · rw [if_pos h82D4] at hd
    obtain ⟨a, ha, rfl⟩ := of_as_ok hd
    unfold RadioControlProtocol.RadioIdentificationReply.spec at ha
    by_cases c1 : u16le b (q + 2) < 6
    · rw [if_pos c1] at ha
      cases ha
      refine ⟨.identificationEmpty (.ofNat _ (u16le b (q + 2))) (by rw [toNat16le]; exact c1), ?_⟩
      simp only [Rcp.message, toNat16le, h82D4]
    rw [if_neg c1] at ha
    obtain ⟨l1, ha⟩ := of_upTo_ok ha
    by_cases c2 : u16le b (q + 2) < 198
    · rw [if_pos c2] at ha
      cases ha
      refine ⟨.identificationHeader (.ofNat _ (u16le b (q + 2))) (.at b (q + 4) 6 l1) (by rw [toNat16le]; omega)
        (by rw [toNat16le]; exact c2), ?_⟩
      simp only [Rcp.message, toNat16le, h82D4, Octets.at]
    rw [if_neg c2] at ha
    obtain ⟨l2, t, ht, ha⟩ := of_textAt_ok ha
    by_cases c3 : u16le b (q + 2) < 206
    · rw [if_pos c3] at ha
      cases ha
      refine ⟨.identificationText (.ofNat _ (u16le b (q + 2))) (.at b (q + 4) 6 l1) t (len16be l2 ht) (by rw [toNat16le]; omega)
        (by rw [toNat16le]; exact c3), ?_⟩
      simp only [Rcp.message, toNat16le, h82D4, Octets.at]
    rw [if_neg c3] at ha
    obtain ⟨l3, ha⟩ := of_upTo_ok ha
    cases ha
    refine ⟨.identification (.ofNat _ (u16le b (q + 2))) (.at b (q + 4) 6 l1) t (len16be l2 ht) (.at b (q + 4 + 198) 8 (by omega))
      (by rw [toNat16le]; omega), ?_⟩
    simp only [Rcp.message, toNat16le, h82D4, Octets.at]
  rw [if_neg h82D4] at hd
  by_cases h10C9 : u16le b q = 0x10C9
  · rw [if_pos h10C9] at hd
    obtain ⟨a, ha, rfl⟩ := of_as_ok hd
    obtain ⟨l1, ha⟩ := of_upTo_ok ha
    obtain ⟨l2, ha⟩ := of_upTo_ok ha
    cases ha
    refine ⟨.broadcastRequest (.ofNat _ (u16le b (q + 2)))
      ((List.range (u8 b (q + 4))).map fun i => (.ofNat 8 (u8 b (q + 4 + 1 + 2 * i)), .ofNat 8 (u8 b (q + 4 + 1 + 2 * i + 1))))
      (by rw [List.length_map, List.length_range]; exact u8_lt _ _), ?_⟩
    simp only [Rcp.message, toNat16le, h10C9, List.length_map, List.length_range, List.map_map, Function.comp_def, toNat8,
      RadioControlProtocol.BroadcastConfiguration.spec]
  rw [if_neg h10C9] at hd
  by_cases h0841 : u16le b q = 0x0841
  · rw [if_pos h0841] at hd
    obtain ⟨a, ha, rfl⟩ := of_as_ok hd
    obtain ⟨rfl, -, hl⟩ := of_whole_ok ha
    refine ⟨.callRequest (.ofNat _ (u16le b (q + 2))) (.ofNat _ (u8 b (q + 4))) (.ofNat _ (u32le b (q + 4 + 1))), ?_⟩
    simp only [Rcp.message, RadioControlProtocol.CallRequest.spec, toNat8, toNat16le, toNat32le, h0841]
  rw [if_neg h0841] at hd
  by_cases h0842 : u16le b q = 0x0842
  · rw [if_pos h0842] at hd
    cases hd
    refine ⟨.removeRadioRequest (.ofNat _ (u16le b (q + 2))), ?_⟩
    simp only [Rcp.message, toNat16le, h0842]
  rw [if_neg h0842] at hd
  by_cases h80C9 : u16le b q = 0x80C9
  · rw [if_pos h80C9] at hd
    obtain ⟨a, ha, rfl⟩ := of_as_ok hd
    obtain ⟨rfl, -, hl⟩ := of_whole_ok ha
    refine ⟨.broadcastReply (.ofNat _ (u16le b (q + 2))) (.ofNat _ (u8 b (q + 4))), ?_⟩
    simp only [Rcp.message, RadioControlProtocol.BroadcastStatusConfigurationReply.spec, toNat8, toNat16le, h80C9]
  rw [if_neg h80C9] at hd
  by_cases h8842 : u16le b q = 0x8842
  · rw [if_pos h8842] at hd
    obtain ⟨a, ha, rfl⟩ := of_as_ok hd
    obtain ⟨rfl, -, hl⟩ := of_whole_ok ha
    refine ⟨.removeRadioReply (.ofNat _ (u16le b (q + 2))) (.ofNat _ (u8 b (q + 4))), ?_⟩
    simp only [Rcp.message, RadioControlProtocol.RemoveRadioReply.spec, toNat8, toNat16le, h8842]
  rw [if_neg h8842] at hd
  obtain ⟨l1, hd⟩ := of_upTo_ok hd
  cases hd
  refine ⟨.other (.ofNat _ (u16le b q)) (.ofNat _ (u16le b (q + 2))) (slice b (q + 4) (u16le b (q + 2)))
    (by rw [length_slice _ _ _ l1, toNat16le]) ?_, ?_⟩
  · rw [toNat16le]
    simp only [List.mem_cons, List.not_mem_nil, or_false, not_or]
    exact ⟨h0841, h8841, h0842, h8842, h10C9, h80C9, h82D4⟩
  · simp only [Rcp.message, toNat16le]

/-- C53: radio control messages. -/
theorem C53_control (b : Bytes) (x : RadioControlProtocol) :
    fromBytes RadioControlProtocol.read b = .ok x ↔ ∃ (msg : Rcp) (rest : Bytes), b = msg.bytes ++ rest ∧ x = msg.message := by
  constructor
  · intro h
    have hs := h
    rw [RadioControlProtocol.parses.fromBytes] at hs
    obtain ⟨e, hs⟩ := of_map_fst_ok hs
    obtain ⟨msg, rfl⟩ := control_wf hs
    obtain ⟨rest, hr⟩ := begins (d := ⟨"Hytera.RadioControlProtocol", _, RadioControlProtocol.read⟩)
      (List.mem_of_getElem? (i := 94) rfl) (decodes_alone (C52_control msg)) h
    exact ⟨msg, rest, hr, rfl⟩
  · rintro ⟨msg, rest, rfl, rfl⟩
    exact decodes_fromBytes (C52_control msg) rest

/-! ### Text messages -/

theorem option_wf {ol : Option Nat} {b : Bytes} {p e : Nat} {t : Option PyStr}
    (h : TextMessageProtocol.optionSpec ol b p = .ok (t, e)) (hl : ∀ n, ol = some n → n < 65536) :
    ∃ o : Option TmpOption, ol = (o.map fun o => o.len.toNat) ∧ t = (o.map fun o => o.text) ∧
      TextMessageProtocol.optionSize ol = optionOctets o := by
  cases ol with
  | none => cases h; exact ⟨none, rfl, rfl, rfl⟩
  | some n =>
    obtain ⟨l1, s, hs, h⟩ := of_textAt_ok h
    cases h
    have hn : (BitVec.ofNat 16 n).toNat = n := by rw [BitVec.toNat_ofNat, Nat.mod_eq_of_lt (hl n rfl)]
    refine ⟨some ⟨.ofNat 16 n, s, by rw [hn, len16le l1 hs]⟩, ?_, rfl, ?_⟩
    · rw [Option.map_some, hn]
    · simp only [TextMessageProtocol.optionSize, optionOctets, hn]; omega

theorem text_rest_wf {ol : Option Nat} {b : Bytes} {q o e : Nat} {x : TextMessageProtocol}
    (h : TextMessageProtocol.restSpec ol b q o = .ok (x, e)) (hl : ∀ n, ol = some n → n < 65536)
    (hb : bitsAt b (8 * q + 1) 1 = if ol.isSome then 1 else 0) : ∃ msg : Tmp, x = msg.message := by
  unfold TextMessageProtocol.restSpec at h
  have t1 : (BitVec.ofNat 1 (bitsAt b (8 * q) 1)).toNat = bitsAt b (8 * q) 1 := by
    rw [BitVec.toNat_ofNat, Nat.mod_eq_of_lt (bitsAt_lt _ _ _)]
  have t6 : (BitVec.ofNat 6 (bitsAt b (8 * q + 2) 6)).toNat = bitsAt b (8 * q + 2) 6 := by
    rw [BitVec.toNat_ofNat, Nat.mod_eq_of_lt (bitsAt_lt _ _ _)]
  by_cases hm : u8 b (q + 1) = 0xA1 ∨ u8 b (q + 1) = 0xB1
  · rw [if_pos hm] at h
    obtain ⟨l0, h⟩ := of_upTo_ok h
    obtain ⟨l1, l2, h⟩ := of_sizedAt_ok h
    obtain ⟨t, ht, h⟩ := of_decoded_ok h
    obtain ⟨ot, e', ho, -, h⟩ := of_next_ok h
    cases h
    obtain ⟨op, rfl, rfl, hs⟩ := option_wf ho hl
    have := len16le l2 ht
    rcases hm with hm | hm
    · refine ⟨⟨.ofNat 1 (bitsAt b (8 * q) 1), .ofNat 6 (bitsAt b (8 * q + 2) 6), .ofNat 16 (u16be b (q + 2)), op, .ofNat 32 (u32be b o),
        .at b (o + 4), .privateMessage (.at b (o + 8)) t, ?_⟩, ?_⟩
      · intro t' ht'
        cases ht'
        rw [toNat16]
        omega
      · simp only [Tmp.message, t1, t6, toNat16, toNat32, Ip.at_obj, TmpBody.source?, TmpBody.result?, TmpBody.text?, TmpBody.service, hm, hb,
          Option.isSome_map, Option.map_some, Option.map_none]
        rfl
    · refine ⟨⟨.ofNat 1 (bitsAt b (8 * q) 1), .ofNat 6 (bitsAt b (8 * q + 2) 6), .ofNat 16 (u16be b (q + 2)), op, .ofNat 32 (u32be b o),
        .at b (o + 4), .groupMessage (.at b (o + 8)) t, ?_⟩, ?_⟩
      · intro t' ht'
        cases ht'
        rw [toNat16]
        omega
      · simp only [Tmp.message, t1, t6, toNat16, toNat32, Ip.at_obj, TmpBody.source?, TmpBody.result?, TmpBody.text?, TmpBody.service, hm, hb,
          Option.isSome_map, Option.map_some, Option.map_none]
        rfl
  rw [if_neg hm] at h
  rw [not_or] at hm
  by_cases hA2 : u8 b (q + 1) = 0xA2
  · rw [if_pos hA2] at h
    obtain ⟨l0, h⟩ := of_upTo_ok h
    obtain ⟨ot, e', ho, -, h⟩ := of_next_ok h
    cases h
    obtain ⟨op, rfl, rfl, hs⟩ := option_wf ho hl
    refine ⟨⟨.ofNat 1 (bitsAt b (8 * q) 1), .ofNat 6 (bitsAt b (8 * q + 2) 6), .ofNat 16 (u16be b (q + 2)), op, .ofNat 32 (u32be b o),
      .at b (o + 4), .privateAck (.at b (o + 8)) (.ofNat 8 (u8 b (o + 12))), nofun⟩, ?_⟩
    simp only [Tmp.message, t1, t6, toNat8, toNat16, toNat32, Ip.at_obj, TmpBody.source?, TmpBody.result?, TmpBody.text?, TmpBody.service, hA2, hb,
      Option.isSome_map, Option.map_some]
    rfl
  rw [if_neg hA2] at h
  by_cases hB2 : u8 b (q + 1) = 0xB2
  · rw [if_pos hB2] at h
    obtain ⟨l0, h⟩ := of_upTo_ok h
    obtain ⟨ot, e', ho, -, h⟩ := of_next_ok h
    cases h
    obtain ⟨op, rfl, rfl, hs⟩ := option_wf ho hl
    refine ⟨⟨.ofNat 1 (bitsAt b (8 * q) 1), .ofNat 6 (bitsAt b (8 * q + 2) 6), .ofNat 16 (u16be b (q + 2)), op, .ofNat 32 (u32be b o),
      .at b (o + 4), .groupAck (.ofNat 8 (u8 b (o + 8))), nofun⟩, ?_⟩
    simp only [Tmp.message, t1, t6, toNat8, toNat16, toNat32, Ip.at_obj, TmpBody.source?, TmpBody.result?, TmpBody.text?, TmpBody.service, hB2, hb,
      Option.isSome_map, Option.map_some, Option.map_none]
    rfl
  rw [if_neg hB2] at h
  obtain ⟨l0, h⟩ := of_upTo_ok h
  obtain ⟨ot, e', ho, -, h⟩ := of_next_ok h
  cases h
  obtain ⟨op, rfl, rfl, hs⟩ := option_wf ho hl
  refine ⟨⟨.ofNat 1 (bitsAt b (8 * q) 1), .ofNat 6 (bitsAt b (8 * q + 2) 6), .ofNat 16 (u16be b (q + 2)), op, .ofNat 32 (u32be b o),
    .at b (o + 4), .other (.ofNat 8 (u8 b (q + 1))) (.at b (o + 8)) ?_, nofun⟩, ?_⟩
  · rw [toNat8]
    simp only [List.mem_cons, List.not_mem_nil, or_false, not_or]
    exact ⟨hm.1, hA2, hm.2, hB2⟩
  · simp only [Tmp.message, t1, t6, toNat8, toNat16, toNat32, Ip.at_obj, TmpBody.source?, TmpBody.result?, TmpBody.text?, TmpBody.service, hb,
      Option.isSome_map, Option.map_some, Option.map_none]

theorem text_wf {b : Bytes} {q e : Nat} {x : TextMessageProtocol} (h : TextMessageProtocol.spec b q = .ok (x, e)) :
    ∃ msg : Tmp, x = msg.message := by
  unfold TextMessageProtocol.spec at h
  obtain ⟨h0, h⟩ := of_upTo_ok h
  by_cases ho : bitsAt b (8 * q + 1) 1 = 1
  · rw [if_pos ho] at h
    obtain ⟨h1, h⟩ := of_upTo_ok h
    refine text_rest_wf h (fun n hn => ?_) ho
    cases hn
    have h1 := u8_lt b (q + 4)
    have h2 := u8_lt b (q + 4 + 1)
    unfold u16be
    omega
  · rw [if_neg ho] at h
    refine text_rest_wf h nofun ?_
    have := bitsAt_lt b (8 * q + 1) 1
    show _ = 0
    omega

/-- C53: text messages. -/
theorem C53_text (b : Bytes) (x : TextMessageProtocol) :
    fromBytes TextMessageProtocol.read b = .ok x ↔ ∃ (msg : Tmp) (rest : Bytes), b = msg.bytes ++ rest ∧ x = msg.message := by
  constructor
  · intro h
    have hs := h
    rw [TextMessageProtocol.parses.fromBytes] at hs
    obtain ⟨e, hs⟩ := of_map_fst_ok hs
    obtain ⟨msg, rfl⟩ := text_wf hs
    obtain ⟨rest, hr⟩ := begins (d := ⟨"Hytera.TextMessageProtocol", _, TextMessageProtocol.read⟩)
      (List.mem_of_getElem? (i := 95) rfl) (decodes_alone (C52_text msg)) h
    exact ⟨msg, rest, hr, rfl⟩
  · rintro ⟨msg, rest, rfl, rfl⟩
    exact decodes_fromBytes (C52_text msg) rest

/-! ### Frames -/

/-- Every message that a frame can carry: the known ones, messages of the location and file transfer protocols of unknown
kind, telemetry messages (of which the class, inside a frame, reads only the header: C09), and the empty message of a
protocol number that stands for no protocol. -/
inductive AnyMsg
  | known (x : Msg)
  | location (opcode message_length : BitVec 16) (h : opcode.toNat ∉ Lp.opcodes)
  | transmit (service_type kind : BitVec 8) (message_length : BitVec 16) (h : kind.toNat ∉ Dtp.kinds)
  | telemetry (service specific : BitVec 8) (message_length : BitVec 16)
  | none (protocol : BitVec 7) (h : protocol.toNat ∉ [0x02, 0x08, 0x09, 0x11, 0x12, 0x13, 0x14])

def AnyMsg.protocol : AnyMsg → BitVec 7
  | known x => x.protocol
  | location .. => 0x08#7
  | transmit .. => 0x13#7
  | telemetry .. => 0x12#7
  | none protocol _ => protocol

def AnyMsg.bytes : AnyMsg → Bytes
  | known x => x.bytes
  | location opcode n _ => pack f[opcode, n]
  | transmit service_type kind n _ => pack f[service_type, kind, n]
  | telemetry service specific n => pack f[service, specific, n]
  | none .. => []

/-- The decoded message; `lead` is the number in the first two octets of the whole data, which the telemetry class takes for
its own service (C09). -/
def AnyMsg.obj (lead : Nat) : AnyMsg → Option HyteraDmrApplicationProtocol.DataUnion
  | known x => some x.obj
  | location opcode n _ => some (.locationProtocol (unknownLocation opcode n))
  | transmit service_type kind n _ => some (.dataTransmitProtocol (unknownTransmit service_type kind n))
  | telemetry service specific n => some (.telemetryProtocol
      { service_type_opcode := resolveEnum _ service.toNat
        specific_service_opcode := specific.toNat
        message_length := n.toNat
        m_specific_service := resolveEnum _ lead
        data := Option.none })
  | none .. => Option.none

/-- A frame around any message. -/
structure AnyFrame where
  reliable : Bool
  msg : AnyMsg
  checksum : BitVec 8

def AnyFrame.bytes (x : AnyFrame) : Bytes := pack f[x.reliable, x.msg.protocol] ++ x.msg.bytes ++ pack f[x.checksum, 0x03#8]

def AnyFrame.obj (lead : Nat) (x : AnyFrame) : HyteraDmrApplicationProtocol where
  is_reliable_message := x.reliable
  message_header := resolveEnum _ x.msg.protocol.toNat
  data := x.msg.obj lead
  checksum := x.checksum.toNat
  message_footer := [0x03]

theorem toNat7 (b : Bytes) (q : Nat) : (BitVec.ofNat 7 (bitsAt b q 7)).toNat = bitsAt b q 7 := by
  rw [BitVec.toNat_ofNat, Nat.mod_eq_of_lt (bitsAt_lt _ _ _)]

theorem bitsAt_low7 (b : Bytes) (q : Nat) (h : q + 1 ≤ b.length) : bitsAt b (8 * q + 1) 7 = u8 b q % 128 := by
  rw [bitsAt_byte b q 1 7 (by omega) (by omega)]; simp

theorem flagAt_high (b : Bytes) (q : Nat) (h : q + 1 ≤ b.length) : flagAt b (8 * q) = decide (128 ≤ u8 b q) := by
  have := flagAt_byte b q 0 (by omega) (by omega)
  rw [Nat.add_zero] at this
  have hu := u8_lt b q
  rw [this, decide_eq_decide]
  simp only [Nat.sub_zero, Nat.reducePow]
  omega

theorem AnyFrame.bytes_eq (x : AnyFrame) :
    x.bytes = hdapFrame x.reliable x.msg.protocol.toNat x.msg.bytes (UInt8.ofNat x.checksum.toNat) := by
  have h1 : pack f[x.reliable, x.msg.protocol] = [UInt8.ofNat ((if x.reliable then 128 else 0) + x.msg.protocol.toNat)] := by
    refine pack_octet rfl ?_
    simp only [number, width, ofBool_v, ofBitVec_v, ofBitVec_w, Nat.add_zero, Nat.mul_one, pow_zero]
    cases x.reliable <;> simp
  have h2 : pack f[x.checksum, 0x03#8] = [UInt8.ofNat x.checksum.toNat, 0x03] := by
    rw [show f[x.checksum, 0x03#8] = f[x.checksum] ++ f[0x03#8] from rfl, pack_append _ _ (by simp [width]) (by simp [width]),
      pack_octet (v := x.checksum.toNat) rfl ?_, pack_octet (v := 3) rfl rfl]
    · rfl
    · simp [number, width]
  rw [AnyFrame.bytes, hdapFrame, h1, h2]

theorem header_fields (s t : BitVec 8) (n : BitVec 16) (rest : Bytes) :
    u8 (pack f[s, t, n] ++ rest) 0 = s.toNat ∧ u8 (pack f[s, t, n] ++ rest) 1 = t.toNat ∧ u16be (pack f[s, t, n] ++ rest) 2 = n.toNat := by
  packed
  exact ⟨(u8_bits m 0 (by omega)).trans hf.1, (u8_bits m 1 (by omega)).trans hf.2.1, (u16be_bits m 2 (by omega)).trans hf.2.2⟩

theorem AnyFrame.u8_first (x : AnyFrame) (rest : Bytes) :
    u8 (x.bytes ++ rest) 0 = (if x.reliable then 128 else 0) + x.msg.protocol.toNat := by
  rw [x.bytes_eq, hdapFrame, List.append_assoc, List.append_assoc]
  have := x.msg.protocol.isLt
  show (UInt8.ofNat _).toNat = _
  rw [UInt8.toNat_ofNat']
  cases x.reliable <;> simp <;> omega

theorem AnyFrame.u8_second (r : Bool) (s t : BitVec 8) (n : BitVec 16) (c : BitVec 8) (rest : Bytes) :
    u8 ((⟨r, .telemetry s t n, c⟩ : AnyFrame).bytes ++ rest) 1 = s.toNat := by
  rw [AnyFrame.bytes_eq, hdapFrame, List.append_assoc, List.append_assoc, List.cons_append, List.nil_append, u8, List.getD_cons_succ]
  rw [AnyMsg.bytes]
  exact (header_fields s t n _).1

theorem AnyFrame.lead_of {b : Bytes} {q : Nat} (x : AnyFrame) (rest : Bytes) (h0 : u8 b q = u8 (x.bytes ++ rest) 0)
    (h1 : ∀ s t n, x.msg = .telemetry s t n → u8 b (q + 1) = s.toNat) : x.obj (u16be b q) = x.obj (u16be (x.bytes ++ rest) 0) := by
  obtain ⟨r, msg, c⟩ := x
  cases msg with
  | telemetry s t n =>
    have h2 := AnyFrame.u8_second r s t n c rest
    have h3 := h1 s t n rfl
    have : u16be b q = u16be ((⟨r, .telemetry s t n, c⟩ : AnyFrame).bytes ++ rest) 0 := by
      rw [u16be, u16be, Nat.zero_add, h0, h2, h3]
    rw [this]
  | _ => simp only [AnyFrame.obj, AnyMsg.obj]

theorem frame_wf {b : Bytes} {q e : Nat} {x : HyteraDmrApplicationProtocol} (hlead : u8 b q % 128 = 0x12 → u16be b 0 ∉ Tp.opcodes)
    (h : HyteraDmrApplicationProtocol.spec b q = .ok (x, e)) :
    ∃ f : AnyFrame, x = f.obj (u16be b 0) ∧ u8 b q = u8 (f.bytes ++ []) 0 ∧
      ∀ s t n, f.msg = .telemetry s t n → u8 b (q + 1) = s.toNat := by
  unfold HyteraDmrApplicationProtocol.spec at h
  obtain ⟨h0, h⟩ := of_upTo_ok h
  obtain ⟨data, e', hd, he, h⟩ := of_next_ok h
  obtain ⟨h2, h3, h⟩ := of_fixedAt_ok h
  cases h
  have key : ∀ msg : AnyMsg, msg.protocol.toNat = bitsAt b (8 * q + 1) 7 → data = msg.obj (u16be b 0) →
      (∀ s t n, msg = .telemetry s t n → u8 b (q + 1) = s.toNat) →
      ∃ f : AnyFrame, (⟨flagAt b (8 * q), resolveEnum _ (bitsAt b (8 * q + 1) 7), data, u8 b e', [0x03]⟩ : HyteraDmrApplicationProtocol) =
        f.obj (u16be b 0) ∧ u8 b q = u8 (f.bytes ++ []) 0 ∧ ∀ s t n, f.msg = .telemetry s t n → u8 b (q + 1) = s.toNat := by
    intro msg h1 h2 h4
    refine ⟨⟨flagAt b (8 * q), msg, .ofNat 8 (u8 b e')⟩, ?_, ?_, h4⟩
    · simp only [AnyFrame.obj, h1, h2, toNat8]
    · have hu := u8_lt b q
      rw [AnyFrame.u8_first, h1, bitsAt_low7 b q h0, flagAt_high b q h0]
      by_cases hc : 128 ≤ u8 b q <;> simp [hc] <;> omega
  rw [← bitsAt_low7 b q h0] at hlead
  generalize hp : bitsAt b (8 * q + 1) 7 = p at *
  unfold HyteraDmrApplicationProtocol.bodySpec at hd
  by_cases c11 : p = 0x11
  · rw [if_pos c11] at hd
    obtain ⟨a, ha, rfl⟩ := of_as_ok hd
    obtain ⟨msg, rfl⟩ := registration_wf ha
    exact key (.known (.registration msg)) c11.symm rfl nofun
  rw [if_neg c11] at hd
  by_cases c12 : p = 0x12
  · rw [if_pos c12] at hd
    obtain ⟨a, ha, rfl⟩ := of_as_ok hd
    unfold TelemetryProtocol.spec at ha
    obtain ⟨l0, ha⟩ := of_upTo_ok ha
    obtain ⟨d, e2, hd2, he2, ha⟩ := of_next_ok ha
    cases ha
    refine key (.telemetry (.ofNat 8 (u8 b (q + 1))) (.ofNat 8 (u8 b (q + 1 + 1))) (.ofNat 16 (u16be b (q + 1 + 2)))) c12.symm ?_ (by rintro _ _ _ ⟨⟩; rw [toNat8])
    replace hlead := hlead c12
    simp only [Tp.opcodes, List.mem_cons, List.not_mem_nil, or_false, not_or] at hlead
    obtain ⟨g1, g2, g3, g4, g5⟩ := hlead
    simp only [TelemetryProtocol.bodySpec, g1, g2, g3, g4, g5, if_false] at hd2
    cases hd2
    simp only [AnyMsg.obj, toNat8, toNat16]
  rw [if_neg c12] at hd
  by_cases c02 : p = 0x02
  · rw [if_pos c02] at hd
    obtain ⟨a, ha, rfl⟩ := of_as_ok hd
    obtain ⟨msg, rfl⟩ := control_wf ha
    exact key (.known (.control msg)) c02.symm rfl nofun
  rw [if_neg c02] at hd
  by_cases c09 : p = 0x09
  · rw [if_pos c09] at hd
    obtain ⟨a, ha, rfl⟩ := of_as_ok hd
    obtain ⟨msg, rfl⟩ := text_wf ha
    exact key (.known (.text msg)) c09.symm rfl nofun
  rw [if_neg c09] at hd
  by_cases c14 : p = 0x14
  · rw [if_pos c14] at hd
    obtain ⟨a, ha, rfl⟩ := of_as_ok hd
    obtain ⟨rfl, -, hl⟩ := of_whole_ok ha
    obtain ⟨msg, hm⟩ := delivery_wf b (q + 1) hl
    exact key (.known (.delivery msg)) c14.symm (by rw [hm]; rfl) nofun
  rw [if_neg c14] at hd
  by_cases c08 : p = 0x08
  · rw [if_pos c08] at hd
    obtain ⟨a, ha, rfl⟩ := of_as_ok hd
    rcases location_wf ha with ⟨msg, n, rfl⟩ | ⟨o, n, ho, rfl⟩
    · exact key (.known (.location msg n)) c08.symm rfl nofun
    · exact key (.location o n ho) c08.symm rfl nofun
  rw [if_neg c08] at hd
  by_cases c13 : p = 0x13
  · rw [if_pos c13] at hd
    obtain ⟨a, ha, rfl⟩ := of_as_ok hd
    rcases transmit_wf ha with ⟨s, msg, rfl⟩ | ⟨s, k, n, ho, rfl⟩
    · exact key (.known (.transmit s msg)) c13.symm rfl nofun
    · exact key (.transmit s k n ho) c13.symm rfl nofun
  rw [if_neg c13] at hd
  cases hd
  have h7 : (BitVec.ofNat 7 p).toNat = p := by rw [← hp, toNat7]
  refine key (.none (.ofNat 7 p) ?_) h7 rfl nofun
  rw [h7]
  simp only [List.mem_cons, List.not_mem_nil, or_false, not_or]
  exact ⟨c02, c08, c09, c11, c12, c13, c14⟩

theorem frame_at_of_message {reliable : Bool} {protocol : Nat} {message : Bytes} {data : Option HyteraDmrApplicationProtocol.DataUnion}
    (hp : protocol < 128) (checksum : UInt8) (b : Bytes) (q : Nat) (tail : Bytes)
    (hb : b.drop q = hdapFrame reliable protocol message checksum ++ tail)
    (hm : b.drop (q + 1) = message ++ ([checksum, 3] ++ tail) → messageAt protocol b (q + 1) = .ok (data, q + 1 + message.length)) :
    parseAt HyteraDmrApplicationProtocol.read b q =
      .ok ({ is_reliable_message := reliable
             message_header := resolveEnum _ protocol
             data
             checksum := checksum.toNat
             message_footer := [0x03] }, q + (hdapFrame reliable protocol message checksum).length) := by
  have hlen : (b.drop q).length = message.length + 3 + tail.length := by
    rw [hb]; simp [hdapFrame]; omega
  rw [List.length_drop] at hlen
  unfold hdapFrame at hb
  simp only [List.cons_append, List.nil_append, List.append_assoc] at hb
  have h0 := u8_of_drop hb
  have hd1 : b.drop (q + 1) = message ++ ([checksum, 3] ++ tail) := by
    have := drop_more (w := [UInt8.ofNat ((if reliable then 128 else 0) + protocol)]) (tail := message ++ ([checksum, 3] ++ tail)) hb
    exact this
  have hd2 : b.drop (q + 1 + message.length) = checksum :: 3 :: tail := drop_more hd1
  have hd3 : b.drop (q + 1 + message.length + 1) = 3 :: tail := by
    have := drop_more (w := [checksum]) (tail := 3 :: tail) hd2
    exact this
  have h0' : u8 b q = (if reliable then 128 else 0) + protocol := by
    rw [h0]
    simp only [UInt8.toNat_ofNat']
    cases reliable <;> simp <;> omega
  rw [C15_layout b q (by omega), if_neg (by omega)]
  have hp' : u8 b q % 128 = protocol := by
    rw [h0']; cases reliable <;> simp <;> omega
  rw [hp', hm hd1]
  simp only
  have hl2 : ¬ b.length < q + 1 + message.length + 2 := by omega
  have h3 : ¬ u8 b (q + 1 + message.length + 1) ≠ 3 := by rw [u8_of_drop hd3]; decide
  rw [if_neg hl2, if_neg h3, u8_of_drop hd2]
  have hr : decide (128 ≤ u8 b q) = reliable := by
    rw [h0']; cases reliable <;> simp <;> omega
  rw [hr]
  simp [hdapFrame]
  omega

theorem u8_dropped (b : Bytes) (q i : Nat) : u8 (b.drop q) i = u8 b (q + i) := by
  simp [u8, List.getElem?_drop]

theorem length_pack4 (s t : BitVec 8) (n : BitVec 16) : (pack f[s, t, n]).length = 4 := by
  rw [← List.append_nil (pack _)]
  packed
  simpa using hl

theorem AnyMsg.at (x : AnyMsg) {b : Bytes} {q : Nat} {tail : Bytes} (hlead : x.protocol = 0x12#7 → u16be b 0 ∉ Tp.opcodes)
    (hb : b.drop q = x.bytes ++ tail) (hq : q ≤ b.length) :
    messageAt x.protocol.toNat b q = .ok (x.obj (u16be b 0), q + x.bytes.length) := by
  have hk : ∀ {p w d}, IsMessage p w d → b.drop q = w ++ tail → messageAt p b q = .ok (d, q + w.length) := fun h hb => h.at hb
  cases x with
  | known x => exact hk x.isMessage hb
  | location o n h =>
    exact hk (.location ((LocationProtocol.parses.parseAt _ _ (Nat.zero_le _)).trans (unknownLocation_spec o n h))) hb
  | transmit s k n h =>
    exact hk (.transmit ((DataTransmitProtocol.parses.parseAt _ _ (Nat.zero_le _)).trans (unknownTransmit_spec s k n h))) hb
  | none p h => exact hk (.other p.isLt h) hb
  | telemetry s t n =>
    replace hlead := hlead rfl
    simp only [AnyMsg.bytes] at hb ⊢
    obtain ⟨f0, f1, f2⟩ := header_fields s t n tail
    rw [← hb, u8_dropped] at f0
    rw [← hb, u8_dropped] at f1
    rw [← hb, u16be, u8_dropped, u8_dropped] at f2
    have hl : b.length - q = 4 + tail.length := by
      rw [← List.length_drop, hb, List.length_append, length_pack4]
    show messageAt 0x12 b q = _
    rw [messageAt, if_neg (by decide), if_neg (by decide), if_neg (by decide), if_neg (by decide), if_pos rfl,
      TelemetryProtocol.parses.parseAt _ _ hq]
    simp only [Tp.opcodes, List.mem_cons, List.not_mem_nil, or_false, not_or] at hlead
    obtain ⟨g1, g2, g3, g4, g5⟩ := hlead
    have f2' : u16be b (q + 2) = n.toNat := f2
    have f0' : u8 b q = s.toNat := f0
    simp only [TelemetryProtocol.spec, TelemetryProtocol.bodySpec, g1, g2, g3, g4, g5, if_false, upTo, next, f0', f1, f2',
      if_pos (show q + 4 ≤ b.length by omega), Parsed.as, AnyMsg.obj, length_pack4]

theorem AnyFrame.at (x : AnyFrame) {b : Bytes} {q : Nat} {tail : Bytes} (hlead : x.msg.protocol = 0x12#7 → u16be b 0 ∉ Tp.opcodes)
    (hb : b.drop q = x.bytes ++ tail) :
    parseAt HyteraDmrApplicationProtocol.read b q = .ok (x.obj (u16be b 0), q + x.bytes.length) := by
  rw [x.bytes_eq] at hb
  have hlen : (b.drop q).length = x.msg.bytes.length + 3 + tail.length := by
    rw [hb]; simp [hdapFrame]; omega
  rw [List.length_drop] at hlen
  rw [frame_at_of_message x.msg.protocol.isLt _ b q tail hb (fun h => x.msg.at hlead h (by omega)), ← x.bytes_eq]
  have : (UInt8.ofNat x.checksum.toNat).toNat = x.checksum.toNat := by
    rw [UInt8.toNat_ofNat']; exact Nat.mod_eq_of_lt x.checksum.isLt
  rw [this]
  rfl

theorem lead_of_telemetry {b : Bytes} (h : u8 b 0 % 128 = 0x12) : u16be b 0 ∉ Tp.opcodes := by
  have h0 := u8_lt b 0
  have h1 := u8_lt b (0 + 1)
  simp only [Tp.opcodes, List.mem_cons, List.not_mem_nil, or_false, u16be]
  omega

theorem AnyFrame.first (x : AnyFrame) (rest : Bytes) : u8 (x.bytes ++ rest) 0 % 128 = x.msg.protocol.toNat := by
  have := x.msg.protocol.isLt
  rw [x.u8_first]
  cases x.reliable <;> simp <;> omega

theorem AnyFrame.alone (x : AnyFrame) (rest : Bytes) :
    parseAt HyteraDmrApplicationProtocol.read (x.bytes ++ rest) 0 = .ok (x.obj (u16be (x.bytes ++ rest) 0), x.bytes.length) := by
  have := x.at (b := x.bytes ++ rest) (q := 0) (tail := rest) (fun h => lead_of_telemetry (by rw [x.first, h]; rfl)) rfl
  rwa [Nat.zero_add] at this

theorem AnyFrame.lead (x : AnyFrame) (rest : Bytes) : u16be (x.bytes ++ rest) 0 = u16be x.bytes 0 := by
  have h : 3 ≤ x.bytes.length := by rw [x.bytes_eq, hdapFrame]; simp
  simp only [u16be, u8, List.getD_eq_getElem?_getD, List.getElem?_append_left (show 0 < x.bytes.length by omega),
    List.getElem?_append_left (show 0 + 1 < x.bytes.length by omega)]

/-- C53: frames. -/
theorem C53_frame (b : Bytes) (x : HyteraDmrApplicationProtocol) :
    fromBytes HyteraDmrApplicationProtocol.read b = .ok x ↔
      ∃ (f : AnyFrame) (rest : Bytes), b = f.bytes ++ rest ∧ x = f.obj (u16be f.bytes 0) := by
  constructor
  · intro h
    have hs := h
    rw [HyteraDmrApplicationProtocol.parses.fromBytes] at hs
    obtain ⟨e, hs⟩ := of_map_fst_ok hs
    obtain ⟨f, rfl, f0, f1⟩ := frame_wf lead_of_telemetry hs
    have hob := f.lead_of [] f0 f1
    rw [hob] at h ⊢
    obtain ⟨rest, hr⟩ := begins (d := ⟨"Hytera.HyteraDmrApplicationProtocol", _, HyteraDmrApplicationProtocol.read⟩)
      (List.mem_of_getElem? (i := 116) rfl) (w := f.bytes) (by have := f.alone []; simpa using this) h
    exact ⟨f, rest, hr, by rw [List.append_nil]⟩
  · rintro ⟨f, rest, rfl, rfl⟩
    rw [fromBytes_parseAt, f.alone rest, f.lead]
    rfl

/-! ### HRNP packets -/

/-- What an HRNP packet can say: with opcode 0 it carries a frame, with another opcode nothing. -/
structure Hrnp where
  version : BitVec 8
  block : BitVec 8
  opcode : BitVec 8
  source : BitVec 8
  destination : BitVec 8
  packet_number : BitVec 16
  packet_length : BitVec 16
  checksum : BitVec 16
  frame : Option AnyFrame
  h : frame.isSome ↔ opcode = 0#8

def Hrnp.bytes (x : Hrnp) : Bytes :=
  pack [0x7E#8, x.version, x.block, x.opcode, x.source, x.destination, x.packet_number, x.packet_length, x.checksum] ++
    (match x.frame with
     | none => []
     | some f => f.bytes)

def Hrnp.obj (x : Hrnp) : HyteraRadioNetworkProtocol where
  header_identifier := [0x7E]
  version := x.version.toNat
  block := x.block.toNat
  opcode := resolveEnum _ x.opcode.toNat
  source_id := x.source.toNat
  destination_id := x.destination.toNat
  packet_number := x.packet_number.toNat
  hrnp_packet_length := x.packet_length.toNat
  checksum := x.checksum.toNat
  data := x.frame.map fun f => f.obj (0x7E00 + x.version.toNat)

theorem hrnp_lead {v : Nat} (h : v < 256) : 0x7E00 + v ∉ Tp.opcodes := by
  simp only [Tp.opcodes, List.mem_cons, List.not_mem_nil, or_false]
  omega

theorem Hrnp.decodes (x : Hrnp) : parseAt HyteraRadioNetworkProtocol.read x.bytes 0 = .ok (x.obj, x.bytes.length) := by
  rw [HyteraRadioNetworkProtocol.parses.parseAt _ _ (Nat.zero_le _)]
  obtain ⟨version, block, opcode, source, destination, packet_number, packet_length, checksum, frame, h⟩ := x
  simp only [Hrnp.bytes, Hrnp.obj]
  cases frame with
  | none =>
    have h3' : opcode.toNat ≠ 0 := fun h' => by
      have := h.mpr (BitVec.eq_of_toNat_eq h')
      cases this
    packed
    have h0 : slice m 0 1 = [0x7E] := slice_of_bits m 0 1 0x7E (by omega) hf.1
    have h3 : u8 m 3 = opcode.toNat := (u8_bits m 3 (by omega)).trans hf.2.2.2.1
    simp only [HyteraRadioNetworkProtocol.spec, fixedAt, List.length_cons, List.length_nil, Nat.zero_add, h0, h3, upTo, optPart,
      next, ↓reduceIte, h3']
    rw [List.length_nil, Nat.add_zero] at hl
    simp (discharger := omega) only [if_pos, u16be_bits, u8_bits, hl]
    simp only [hf, Nat.reduceMul]
    rfl
  | some f =>
    have h3' : opcode.toNat = 0 := by rw [h.mp rfl]; rfl
    packed
    have h0 : slice m 0 1 = [0x7E] := slice_of_bits m 0 1 0x7E (by omega) hf.1
    have h3 : u8 m 3 = 0 := (u8_bits m 3 (by omega)).trans (hf.2.2.2.1.trans h3')
    have hu0 : u8 m 0 = 0x7E := (u8_bits m 0 (by omega)).trans hf.1
    have hu1 : u8 m 1 = version.toNat := (u8_bits m 1 (by omega)).trans hf.2.1
    have hu : u16be m 0 = 0x7E00 + version.toNat := by rw [u16be, Nat.zero_add, hu0, hu1]
    have hx : HyteraDmrApplicationProtocol.spec m 12 = .ok (f.obj (0x7E00 + version.toNat), 12 + f.bytes.length) := by
      rw [← HyteraDmrApplicationProtocol.parses.parseAt m 12 (by omega), ← hu]
      exact f.at (tail := []) (fun _ => by rw [hu]; exact hrnp_lead version.isLt) (by rw [hd, List.append_nil])
    simp only [HyteraRadioNetworkProtocol.spec, fixedAt, List.length_cons, List.length_nil, Nat.zero_add, h0, h3, upTo, optPart, hx,
      Parsed.as, next, ↓reduceIte]
    simp (discharger := omega) only [if_pos, u16be_bits, u8_bits, hl]
    simp only [hf, Nat.reduceMul, h3']
    rfl

theorem hrnp_wf {b : Bytes} {e : Nat} {x : HyteraRadioNetworkProtocol} (h : HyteraRadioNetworkProtocol.spec b 0 = .ok (x, e)) :
    ∃ p : Hrnp, x = p.obj := by
  unfold HyteraRadioNetworkProtocol.spec at h
  obtain ⟨h0, h1, h⟩ := of_fixedAt_ok h
  obtain ⟨h2, h⟩ := of_upTo_ok h
  obtain ⟨data, e', hd, he, h⟩ := of_next_ok h
  cases h
  have hu0 : u8 b 0 = 0x7E := (slice_one_eq b 0 0x7E (by omega)).mp h1
  have hu : u16be b 0 = 0x7E00 + u8 b 1 := by rw [u16be, Nat.zero_add, hu0]
  unfold optPart at hd
  have key : ∀ frame : Option AnyFrame, (frame.isSome ↔ u8 b (0 + 3) = 0) → data = (frame.map fun f => f.obj (0x7E00 + u8 b (0 + 1))) →
      ∃ p : Hrnp, (⟨[0x7E], u8 b (0 + 1), u8 b (0 + 2), resolveEnum _ (u8 b (0 + 3)), u8 b (0 + 4), u8 b (0 + 5), u16be b (0 + 6),
        u16be b (0 + 8), u16be b (0 + 10), data⟩ : HyteraRadioNetworkProtocol) = p.obj := by
    intro frame g1 g2
    refine ⟨⟨.ofNat 8 (u8 b (0 + 1)), .ofNat 8 (u8 b (0 + 2)), .ofNat 8 (u8 b (0 + 3)), .ofNat 8 (u8 b (0 + 4)), .ofNat 8 (u8 b (0 + 5)),
      .ofNat 16 (u16be b (0 + 6)), .ofNat 16 (u16be b (0 + 8)), .ofNat 16 (u16be b (0 + 10)), frame, ?_⟩, ?_⟩
    · rw [g1]
      refine ⟨fun h => by rw [h], fun h => ?_⟩
      rw [← toNat8 b (0 + 3), h]
      rfl
    · simp only [Hrnp.obj, toNat8, toNat16, g2]
  by_cases c : u8 b (0 + 3) = 0
  · rw [if_pos c] at hd
    obtain ⟨a, ha, rfl⟩ := of_as_ok hd
    obtain ⟨f, rfl, -, -⟩ := frame_wf (fun _ => by rw [hu]; exact hrnp_lead (u8_lt _ _)) ha
    exact key (some f) (by simp [c]) (by rw [hu]; rfl)
  · rw [if_neg c] at hd
    cases hd
    exact key none (by simp [c]) rfl

/-- C53: HRNP packets. -/
theorem C53_hrnp (b : Bytes) (x : HyteraRadioNetworkProtocol) :
    fromBytes HyteraRadioNetworkProtocol.read b = .ok x ↔ ∃ (p : Hrnp) (rest : Bytes), b = p.bytes ++ rest ∧ x = p.obj := by
  constructor
  · intro h
    have hs := h
    rw [HyteraRadioNetworkProtocol.parses.fromBytes] at hs
    obtain ⟨e, hs⟩ := of_map_fst_ok hs
    obtain ⟨p, rfl⟩ := hrnp_wf hs
    obtain ⟨rest, hr⟩ := begins (d := ⟨"Hytera.HyteraRadioNetworkProtocol", _, HyteraRadioNetworkProtocol.read⟩)
      (List.mem_of_getElem? (i := 117) rfl) p.decodes h
    exact ⟨p, rest, hr, rfl⟩
  · rintro ⟨p, rest, rfl, rfl⟩
    exact C41_trailing ⟨"Hytera.HyteraRadioNetworkProtocol", _, HyteraRadioNetworkProtocol.read⟩ (by simp [pduDecoders]) _ _
      (by rw [fromBytes_parseAt, p.decodes]; rfl) rest

/-! ### HSTRP packets -/

/-- What an HSTRP packet can say. The flags are, from the highest bit of their octet: two reserved bits, option, reject, close,
connect, heartbeat, acknowledgement. A packet with one of reject, close and connect carries arbitrary extra data, any other packet
carries frames. Options need the option flag and no heartbeat flag; with these flags only an empty packet has no options. -/
structure Hstrp where
  version : UInt8
  flags : UInt8
  sequence_number : BitVec 16
  options : List (Nat × Bytes)
  frames : List AnyFrame
  extra : Bytes
  good : ∀ o ∈ options, GoodOption o
  hoptions : options ≠ [] → flags.toNat.testBit 5 = true ∧ flags.toNat.testBit 1 = false
  hnone : options = [] → flags.toNat.testBit 5 = false ∨ flags.toNat.testBit 1 = true ∨ (frames = [] ∧ extra = [])
  hframes : frames ≠ [] → ¬ (flags.toNat.testBit 4 ∨ flags.toNat.testBit 3 ∨ flags.toNat.testBit 2)
  hextra : extra ≠ [] → flags.toNat.testBit 4 ∨ flags.toNat.testBit 3 ∨ flags.toNat.testBit 2

def Hstrp.bytes (x : Hstrp) : Bytes :=
  hstrpPacket x.version x.flags x.sequence_number.toNat (encodeOptions x.options ++ ((x.frames.map AnyFrame.bytes).flatten ++ x.extra))

def Hstrp.obj (x : Hstrp) : HyteraSimpleTransportReliabilityProtocol where
  header := [0x32, 0x42]
  version := x.version.toNat
  reserved := x.flags.toNat / 64
  has_option := x.flags.toNat.testBit 5
  is_reject := x.flags.toNat.testBit 4
  is_close := x.flags.toNat.testBit 3
  is_connect := x.flags.toNat.testBit 2
  is_heartbeat := x.flags.toNat.testBit 1
  is_ack := x.flags.toNat.testBit 0
  sequence_number := x.sequence_number.toNat
  options := if x.options = [] then none else some (optionObjects x.options)
  data := if x.frames = [] then none else some (x.frames.map (AnyFrame.obj 0x3242))
  extra_data := if x.extra = [] then none else some x.extra

theorem magic (rest : Bytes) : u16be (0x32 :: 0x42 :: rest) 0 = 0x3242 := by
  simp [u16be, u8]

theorem Consecutive.of_nil {α : Type} {r : Rd α} {b : Bytes} {q e : Nat} (h : Consecutive r b q [] e) : e = q := by
  cases h
  rfl

theorem hstrp_lead : 0x3242 ∉ Tp.opcodes := by decide

theorem AnyFrame.pos (x : AnyFrame) : 3 ≤ x.bytes.length := by rw [x.bytes_eq, hdapFrame]; simp

theorem anyFrames_at {b : Bytes} (hu : u16be b 0 = 0x3242) : ∀ (fs : List AnyFrame) (q : Nat) (tail : Bytes),
    b.drop q = (fs.map AnyFrame.bytes).flatten ++ tail → q ≤ b.length →
    Consecutive HyteraDmrApplicationProtocol.read b q (fs.map (AnyFrame.obj 0x3242)) (q + (fs.map AnyFrame.bytes).flatten.length)
  | [], q, tail, _, _ => .nil _
  | f :: fs, q, tail, hb, hq => by
    have hb' : b.drop q = f.bytes ++ ((fs.map AnyFrame.bytes).flatten ++ tail) := by rw [hb]; simp
    have hlen : (b.drop q).length = f.bytes.length + (((fs.map AnyFrame.bytes).flatten).length + tail.length) := by
      rw [hb', List.length_append, List.length_append]
    rw [List.length_drop] at hlen
    have hat := f.at (fun _ => by rw [hu]; exact hstrp_lead) hb'
    rw [hu] at hat
    have hpos := f.pos
    have h1 := anyFrames_at hu fs (q + f.bytes.length) tail (drop_more hb') (by omega)
    have he : q + ((f :: fs).map AnyFrame.bytes).flatten.length = q + f.bytes.length + ((fs.map AnyFrame.bytes).flatten).length := by
      simp; omega
    rw [he]
    exact .cons hat (by omega) (by omega) h1

theorem Hstrp.decodes (x : Hstrp) : fromBytes HyteraSimpleTransportReliabilityProtocol.read x.bytes = .ok x.obj := by
  obtain ⟨version, flags, seq, options, frames, extra, good, hoptions, hnone, hframes, hextra⟩ := x
  simp only [Hstrp.bytes, Hstrp.obj]
  have hpos : ∀ fs : List AnyFrame, (fs.map AnyFrame.bytes).flatten = [] → fs = [] := by
    intro fs h
    cases fs with
    | nil => rfl
    | cons f fs =>
      have hp := f.pos
      rw [List.map_cons, List.flatten_cons, List.append_eq_nil_iff] at h
      rw [h.1] at hp
      simp at hp
  have hlen : (hstrpPacket version flags seq.toNat (encodeOptions options ++ ((frames.map AnyFrame.bytes).flatten ++ extra))).length =
      6 + (encodeOptions options).length + (((frames.map AnyFrame.bytes).flatten ++ extra)).length := by
    simp [hstrpPacket]; omega
  have hdrop : ∀ body, (hstrpPacket version flags seq.toNat (encodeOptions options ++ body)).drop (6 + (encodeOptions options).length) = body := by
    intro body
    have : hstrpPacket version flags seq.toNat (encodeOptions options ++ body) =
        ([0x32, 0x42, version, flags, UInt8.ofNat (seq.toNat / 256), UInt8.ofNat (seq.toNat % 256)] ++ encodeOptions options) ++ body := by
      simp [hstrpPacket]
    rw [this]
    have hl : ([0x32, 0x42, version, flags, UInt8.ofNat (seq.toNat / 256), UInt8.ofNat (seq.toNat % 256)] ++ encodeOptions options : Bytes).length =
        6 + (encodeOptions options).length := by simp; omega
    rw [← hl, List.drop_left]
  by_cases hc : flags.toNat.testBit 4 ∨ flags.toNat.testBit 3 ∨ flags.toNat.testBit 2
  · have hf : frames = [] := Classical.byContradiction fun h => hframes h hc
    subst hf
    have := hstrp_of_parts (version := version) (flags := flags) seq.isLt options good extra hoptions
      (fun h => by rcases hnone h with h | h | h <;> simp [h]) (data := none) (e2 := 6 + (encodeOptions options).length)
      (.inr ⟨by rintro ⟨-, h1, h2, h3⟩; rcases hc with h | h | h <;> contradiction, rfl, rfl⟩)
    simp only [List.map_nil, List.flatten_nil, List.nil_append, ↓reduceIte]
    rw [this, hdrop]
    by_cases he : extra = []
    · subst he; simp
    · have hne : ¬ 6 + (encodeOptions options).length = 6 + (encodeOptions options).length + extra.length := by
        have := List.length_pos_iff.mpr he
        omega
      simp only [hne, he, if_false]
  · have he : extra = [] := Classical.byContradiction fun h => hc (hextra h)
    subst he
    rw [List.append_nil] at hlen ⊢
    have hu : u16be (hstrpPacket version flags seq.toNat (encodeOptions options ++ (frames.map AnyFrame.bytes).flatten)) 0 = 0x3242 := magic _
    have := hstrp_of_parts (version := version) (flags := flags) seq.isLt options good ((frames.map AnyFrame.bytes).flatten) hoptions
      (fun h => by rcases hnone h with h | h | h <;> simp [h]) (data := if frames = [] then none else some (frames.map (AnyFrame.obj 0x3242)))
      (e2 := 6 + (encodeOptions options).length + ((frames.map AnyFrame.bytes).flatten).length) (by
        by_cases hne : frames = []
        · subst hne
          exact .inr ⟨fun h => h.1 rfl, rfl, rfl⟩
        · refine .inl ⟨⟨fun h => hne (hpos _ h), fun h => hc (.inl h), fun h => hc (.inr (.inl h)), fun h => hc (.inr (.inr h))⟩, _,
            if_neg hne, ?_, hlen.symm⟩
          exact anyFrames_at hu frames _ [] (by rw [List.append_nil, hdrop]) (by omega))
    rw [this, if_pos rfl]
    rfl

theorem options_wf {b : Bytes} {q e : Nat} {os : List HyteraSimpleTransportReliabilityProtocol.Option}
    (h : Consecutive HyteraSimpleTransportReliabilityProtocol.Option.read b q os e) (hc : Chained (·.expect_more_options) os) :
    ∃ l : List (Nat × Bytes), l ≠ [] ∧ (∀ o ∈ l, GoodOption o) ∧ os = optionObjects l := by
  have one : ∀ {q m : Nat} {x : HyteraSimpleTransportReliabilityProtocol.Option}, q < m → m ≤ b.length →
      parseAt HyteraSimpleTransportReliabilityProtocol.Option.read b q = .ok (x, m) →
      ∃ o, GoodOption o ∧ x = optionObject x.expect_more_options o := by
    intro q m x h1 h2 hx
    rw [HyteraSimpleTransportReliabilityProtocol.Option.parses.parseAt b q (by omega)] at hx
    obtain ⟨l1, hx⟩ := of_upTo_ok hx
    obtain ⟨l2, hx⟩ := of_upTo_ok hx
    cases hx
    refine ⟨(bitsAt b (8 * q + 1) 7, slice b (q + 2) (u8 b (q + 1))), ⟨bitsAt_lt _ _ _, ?_⟩, ?_⟩
    · rw [length_slice _ _ _ l2]; exact u8_lt _ _
    · simp only [optionObject, length_slice _ _ _ l2]
  induction h with
  | nil => cases hc
  | @cons q m e x xs h1 h2 h3 h4 ih =>
    obtain ⟨o, go, ho⟩ := one h2 h3 h1
    cases hc with
    | last hl =>
      replace hl : x.expect_more_options = false := hl
      rw [hl] at ho
      exact ⟨[o], by simp, by simpa using go, by rw [ho]; rfl⟩
    | cons hl hr =>
      replace hl : x.expect_more_options = true := hl
      rw [hl] at ho
      obtain ⟨l, g1, g2, g3⟩ := ih hr
      refine ⟨o :: l, by simp, ?_, ?_⟩
      · exact List.forall_mem_cons.mpr ⟨go, g2⟩
      · rw [g3, ho]
        match l, g1 with
        | o' :: l, _ => rfl

theorem frames_wf {b : Bytes} (hu : u16be b 0 = 0x3242) {q e : Nat} {fs : List HyteraDmrApplicationProtocol}
    (h : Consecutive HyteraDmrApplicationProtocol.read b q fs e) : ∃ l : List AnyFrame, fs = l.map (AnyFrame.obj 0x3242) := by
  induction h with
  | nil => exact ⟨[], rfl⟩
  | @cons q m e x xs h1 h2 h3 h4 ih =>
    obtain ⟨l, rfl⟩ := ih
    rw [HyteraDmrApplicationProtocol.parses.parseAt b q (by omega)] at h1
    obtain ⟨f, rfl, -, -⟩ := frame_wf (fun _ => by rw [hu]; exact hstrp_lead) h1
    exact ⟨f :: l, by rw [hu]; rfl⟩

theorem hstrp_all {b : Bytes} {x : HyteraSimpleTransportReliabilityProtocol}
    (h : fromBytes HyteraSimpleTransportReliabilityProtocol.read b = .ok x) :
    parseAt HyteraSimpleTransportReliabilityProtocol.read b 0 = .ok (x, b.length) := by
  obtain ⟨n, h1⟩ := parseAt_of_fromBytes h
  have h2 := h1
  rw [HyteraSimpleTransportReliabilityProtocol.parses.parseAt _ _ (Nat.zero_le _)] at h2
  unfold HyteraSimpleTransportReliabilityProtocol.spec at h2
  obtain ⟨_, _, h2⟩ := of_fixedAt_ok h2
  obtain ⟨_, h2⟩ := of_upTo_ok h2
  obtain ⟨_, _, _, _, h2⟩ := of_next_ok h2
  obtain ⟨_, _, _, _, h2⟩ := of_next_ok h2
  cases h2
  exact h1

theorem hstrp_wf {b : Bytes} {x : HyteraSimpleTransportReliabilityProtocol}
    (h : fromBytes HyteraSimpleTransportReliabilityProtocol.read b = .ok x) : ∃ p : Hstrp, x = p.obj := by
  obtain ⟨e1, e2, hx⟩ := (C17_layout b x).mp h
  have hu : u16be b 0 = 0x3242 := by
    match b, hx.header.1 with
    | _ :: _ :: _, h => cases h; exact magic _
  have h3 : (UInt8.ofNat (u8 b 3)).toNat = u8 b 3 := by
    rw [UInt8.toNat_ofNat']; exact Nat.mod_eq_of_lt (u8_lt _ _)
  have h2 : (UInt8.ofNat (u8 b 2)).toNat = u8 b 2 := by
    rw [UInt8.toNat_ofNat']; exact Nat.mod_eq_of_lt (u8_lt _ _)
  have h4 : (BitVec.ofNat 16 (256 * u8 b 4 + u8 b 5)).toNat = 256 * u8 b 4 + u8 b 5 := by
    have := u8_lt b 4
    have := u8_lt b 5
    rw [BitVec.toNat_ofNat, Nat.mod_eq_of_lt (by omega)]
  obtain ⟨hsize, ⟨-, hheader⟩, hversion, hreserved, ho, hr, hcl, hco, hh, ha, hs, hopts, hdata, hextra⟩ := hx
  rw [ho, hh] at hopts
  rw [hr, hcl, hco] at hdata
  obtain ⟨l, l1, l2, l3, l4, l5⟩ : ∃ l : List (Nat × Bytes), (∀ o ∈ l, GoodOption o) ∧
      x.options = (if l = [] then none else some (optionObjects l)) ∧
      (l ≠ [] → (u8 b 3).testBit 5 = true ∧ (u8 b 3).testBit 1 = false) ∧
      (l = [] → (u8 b 3).testBit 5 = false ∨ (u8 b 3).testBit 1 = true ∨ b.length ≤ e1) ∧ e1 ≤ b.length := by
    rcases hopts with ⟨⟨p1, p2, p3⟩, os, g1, g2, g3⟩ | ⟨hn, g1, g2⟩
    · obtain ⟨l, k1, k2, k3⟩ := options_wf g2 g3
      refine ⟨l, k2, by rw [if_neg k1, g1, k3], fun _ => ⟨p2, by simpa using p3⟩, fun h => absurd h k1, g2.le_length hsize⟩
    · refine ⟨[], nofun, by rw [if_pos rfl, g1], fun h => absurd rfl h, fun _ => ?_, by omega⟩
      by_cases c1 : (u8 b 3).testBit 5
      · by_cases c2 : (u8 b 3).testBit 1
        · exact .inr (.inl c2)
        · refine .inr (.inr ?_)
          have : ¬ 6 < b.length := fun h => hn ⟨h, c1, c2⟩
          omega
      · exact .inl (by simpa using c1)
  obtain ⟨fs, ex, f1, f2, f3, f4, f5⟩ : ∃ (fs : List AnyFrame) (ex : Bytes),
      x.data = (if fs = [] then none else some (fs.map (AnyFrame.obj 0x3242))) ∧
      x.extra_data = (if ex = [] then none else some ex) ∧
      (fs ≠ [] → ¬ ((u8 b 3).testBit 4 ∨ (u8 b 3).testBit 3 ∨ (u8 b 3).testBit 2)) ∧
      (ex ≠ [] → ((u8 b 3).testBit 4 ∨ (u8 b 3).testBit 3 ∨ (u8 b 3).testBit 2)) ∧
      (b.length ≤ e1 → fs = [] ∧ ex = []) := by
    rcases hdata with ⟨⟨p1, p2⟩, fs, g1, g2, g3⟩ | ⟨hn, g1, g2⟩
    · obtain ⟨k, rfl⟩ := frames_wf hu g2
      have hk : k ≠ [] := by
        rintro rfl
        have := Consecutive.of_nil g2
        omega
      refine ⟨k, [], by rw [if_neg hk, g1], by rw [hextra, if_pos g3, if_pos rfl], ?_, nofun, fun h => by omega⟩
      rintro - (h | h | h)
      · exact p2.1 h
      · exact p2.2.1 h
      · exact p2.2.2 h
    · subst g2
      refine ⟨[], b.drop e2, by rw [if_pos rfl, g1], ?_, nofun, ?_, fun h => ⟨rfl, List.drop_eq_nil_of_le h⟩⟩
      · rw [hextra]
        by_cases he : e2 = b.length
        · rw [if_pos he, if_pos (List.drop_eq_nil_of_le (by omega))]
        · rw [if_neg he, if_neg (fun h => by rw [List.drop_eq_nil_iff] at h; omega)]
      · intro hne
        have : e2 < b.length := by
          refine Classical.byContradiction fun h => hne (List.drop_eq_nil_of_le (by omega))
        refine Classical.byContradiction fun h => hn ⟨this, ?_, ?_, ?_⟩
        · exact fun h' => h (.inl h')
        · exact fun h' => h (.inr (.inl h'))
        · exact fun h' => h (.inr (.inr h'))
  refine ⟨⟨.ofNat (u8 b 2), .ofNat (u8 b 3), .ofNat 16 (256 * u8 b 4 + u8 b 5), l, fs, ex, l1, by rwa [h3], ?_, by rwa [h3], by rwa [h3]⟩, ?_⟩
  · rw [h3]
    intro h
    rcases l4 h with h | h | h
    · exact .inl h
    · exact .inr (.inl h)
    · exact .inr (.inr (f5 h))
  · calc x = ⟨x.header, x.version, x.reserved, x.has_option, x.is_reject, x.is_close, x.is_connect, x.is_heartbeat, x.is_ack,
        x.sequence_number, x.options, x.data, x.extra_data⟩ := rfl
      _ = _ := by
        simp only [Hstrp.obj, h2, h3, h4, hheader, hversion, hreserved, ho, hr, hcl, hco, hh, ha, hs, l2, f1, f2]

/-- C53: HSTRP packets. -/
theorem C53_hstrp (b : Bytes) (x : HyteraSimpleTransportReliabilityProtocol) :
    fromBytes HyteraSimpleTransportReliabilityProtocol.read b = .ok x ↔ ∃ p : Hstrp, b = p.bytes ∧ x = p.obj := by
  constructor
  · intro h
    obtain ⟨p, rfl⟩ := hstrp_wf h
    refine ⟨p, ?_, rfl⟩
    obtain ⟨l, e1, e2, -, -, h4⟩ := C43_equal_objects
      ⟨"Hytera.HyteraSimpleTransportReliabilityProtocol", _, HyteraSimpleTransportReliabilityProtocol.read⟩
      (List.mem_of_getElem? (i := 119) rfl) b p.bytes 0 0 _ _ p.obj (Nat.zero_le _) (Nat.zero_le _) (hstrp_all h) (hstrp_all p.decodes)
    rw [Nat.zero_add] at e1 e2
    simp only [slice, List.drop_zero] at h4
    rwa [← e1, List.take_length, e1, ← e2, List.take_length] at h4
  · rintro ⟨p, rfl, rfl⟩
    exact p.decodes

/-! ### Concrete cases -/

/-- A frame with a text message, followed by two more octets. -/
example : fromBytes HyteraDmrApplicationProtocol.read ((⟨true, .known (.text exampleMessage), 0x55⟩ : AnyFrame).bytes ++ [1, 2]) =
    .ok ⟨true, .known .text_message_protocol, some (.textMessageProtocol exampleMessage.message), 0x55, [0x03]⟩ :=
  (C53_frame _ _).mpr ⟨_, _, rfl, rfl⟩

/-- The octets of a telemetry frame. -/
example : (⟨true, .telemetry 0xA0 0x01 7, 0x55⟩ : AnyFrame).bytes = [0x92, 0xA0, 0x01, 0, 7, 0x55, 0x03] := by decide +kernel

/-- An HRNP packet around it, and one without a frame. -/
def exampleHrnp : Hrnp := ⟨4, 0, 0, 1, 2, 3, 19, 5, some ⟨true, .telemetry 0xA0 0x01 7, 0x55⟩, by decide⟩

example : exampleHrnp.bytes = [0x7E, 4, 0, 0, 1, 2, 0, 3, 0, 19, 0, 5, 0x92, 0xA0, 0x01, 0, 7, 0x55, 0x03] := by decide +kernel

example : ∃ x, fromBytes HyteraRadioNetworkProtocol.read exampleHrnp.bytes = .ok x ∧ x.packet_number = 3 ∧ x.data.isSome :=
  ⟨_, (C53_hrnp _ _).mpr ⟨exampleHrnp, [], (List.append_nil _).symm, rfl⟩, rfl, rfl⟩

/-- No packet starts with another octet than 7E. -/
example (b : Bytes) (x : HyteraRadioNetworkProtocol) : fromBytes HyteraRadioNetworkProtocol.read (0x7F :: b) ≠ .ok x := by
  rw [Ne, C53_hrnp]
  rintro ⟨p, rest, h, -⟩
  have : u8 (p.bytes ++ rest) 0 = 0x7E := by
    rw [Hrnp.bytes, List.append_assoc]
    packed
    exact (u8_bits m 0 (by omega)).trans hf.1
  rw [← h] at this
  exact absurd this (by simp [u8])

/-- An HSTRP packet with an option and two frames. -/
def exampleHstrp : Hstrp where
  version := 0
  flags := 0x20
  sequence_number := 7
  options := [(3, [1, 2, 3, 4])]
  frames := [⟨true, .telemetry 0xA0 0x01 7, 0x55⟩, ⟨false, .none 5 (by decide), 0x66⟩]
  extra := []
  good := by simp [GoodOption]
  hoptions := by decide
  hnone := by decide
  hframes := by decide
  hextra := by decide

example : exampleHstrp.bytes =
    [0x32, 0x42, 0, 0x20, 0, 7, 3, 4, 1, 2, 3, 4, 0x92, 0xA0, 0x01, 0, 7, 0x55, 0x03, 0x05, 0x66, 0x03] := by decide +kernel

example : ∃ x, fromBytes HyteraSimpleTransportReliabilityProtocol.read exampleHstrp.bytes = .ok x ∧ x.sequence_number = 7 ∧
    x.extra_data = none :=
  ⟨_, (C53_hstrp _ _).mpr ⟨exampleHstrp, rfl, rfl⟩, rfl, rfl⟩

/-- A broadcast request with two settings. -/
example : fromBytes RadioControlProtocol.read [0xC9, 0x10, 5, 0, 2, 1, 2, 3, 4] =
    .ok (Rcp.broadcastRequest 5 [(1, 2), (3, 4)] (by decide)).message :=
  (C53_control _ _).mpr ⟨.broadcastRequest 5 [(1, 2), (3, 4)] (by decide), [], by decide +kernel, rfl⟩

/-- Telemetry of an unknown kind, and of a known one. -/
example : fromBytes TelemetryProtocol.read [0xA0, 0x02, 0, 9, 1] = .ok (unknownTelemetry 0xA0 0x02 9) :=
  (C53_telemetry _ _).mpr (.inr ⟨0xA0, 0x02, 9, [1], by decide, by decide +kernel, rfl⟩)

example : ∃ x, fromBytes TelemetryProtocol.read ([0xA0, 0x81, 0, 12, 10, 0, 0, 1, 10, 0, 0, 2, 1, 1, 0x3F, 5] ++ [1]) = .ok x ∧ x.data.isSome :=
  ⟨_, (C53_telemetry _ _).mpr (.inl ⟨.standardStatusReport ⟨⟨10, 0, 0, 1⟩, ⟨10, 0, 0, 2⟩, 1, 1, ⟨[0x3F], rfl⟩⟩ 5, 12, [1],
    by decide +kernel, rfl⟩), rfl⟩

/-- A file transfer message of an unknown kind. -/
example : fromBytes DataTransmitProtocol.read [1, 7, 0, 9, 1] = .ok (unknownTransmit 1 7 9) :=
  (C53_transmit _ _).mpr (.inr ⟨1, 7, 9, [1], by decide, by decide +kernel, rfl⟩)

/-- A location message of an unknown kind. -/
example : fromBytes LocationProtocol.read [0xE0, 1, 0, 9, 1] = .ok (unknownLocation 0xE001 9) :=
  (C53_location _ _).mpr (.inr ⟨0xE001, 9, [1], by decide, by decide +kernel, rfl⟩)

/-- A registration request. -/
example : ∃ x, fromBytes RadioRegistrationService.read [0, 3, 0, 4, 10, 0, 0, 80, 99] = .ok x :=
  ⟨_, (C53_registration _ _).mpr ⟨.other 3 4 ⟨10, 0, 0, 80⟩ (by decide) (by decide), [99], by decide +kernel, rfl⟩⟩

end Dmr.Wire
