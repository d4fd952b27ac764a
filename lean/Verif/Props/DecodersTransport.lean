import Verif.Unpack
import Verif.Props.Encoders2
import Verif.Props.DecodersMotorola
/-
C53: what the decoders of IP site connect packets, heartbeats and RTP packets accept.
-/

set_option autoImplicit false
set_option linter.unusedSimpArgs false

namespace Dmr.Wire

open Spec Hytera

theorem le16At_v (m : Bytes) (q : Nat) (h : q + 2 ≤ m.length) : bitsAt m (8 * q) 16 = (le16 (BitVec.ofNat 16 (u16le m q))).v := by
  rw [← u16be_bits m q h, le16]
  have h1 := u8_lt m q
  have h2 := u8_lt m (q + 1)
  simp only [BitVec.toNat_ofNat, u16be, u16le]
  omega

theorem le32At_v (m : Bytes) (q : Nat) (h : q + 4 ≤ m.length) : bitsAt m (8 * q) 32 = (le32 (BitVec.ofNat 32 (u32le m q))).v := by
  rw [← u32be_bits m q h, le32]
  have h1 := u8_lt m q
  have h2 := u8_lt m (q + 1)
  have h3 := u8_lt m (q + 2)
  have h4 := u8_lt m (q + 3)
  simp only [BitVec.toNat_ofNat, u32be, u32le]
  omega

theorem toNat_fieldAt_u8 (m : Bytes) (q : Nat) (h : q < m.length) : (fieldAt m (8 * q) 8).toNat = u8 m q := by
  rw [toNat_fieldAt, u8_bits m q h]

theorem octetsAt_v {n : Nat} (m : Bytes) (q : Nat) (h : q + n ≤ m.length) :
    bitsAt m (8 * q) (8 * n) = (ofOctets (⟨slice m q n, length_slice _ _ _ h⟩ : Octets n)).v := by
  show _ = bigEndian (slice m q n)
  rw [bigEndian_eq, beVal_slice m q n h]

/-! ### IP site connect -/

theorem length_ipsc (x : Ipsc) : x.bytes.length = 72 := by
  rw [Ipsc.bytes, length_pack]
  simp [width, ofOctets, le16, le32, ofBitVec]

theorem ipsc_encoder (x : Ipsc) (rest : Bytes) : fromBytes IpSiteConnectProtocol.read (x.bytes ++ rest) = .ok (x.obj rest) := by
  have hlen : (x.bytes ++ rest).length = 72 + rest.length := by rw [List.length_append, length_ipsc]
  have hdrop : (x.bytes ++ rest).drop 72 = rest := by rw [← length_ipsc x, List.drop_left]
  rw [C19_layout]
  have hf := fields_pack [x.source_port, 0x5A5A#16, x.sequence_number, x.reserved_3, x.packet_type, x.reserved_7a, x.timeslot, x.slot_type,
    le16 x.color_code, x.frame_type, x.reserved_2a, x.payload, x.reserved_2b, x.call_type, le32 x.destination, le32 x.source,
    x.reserved_1b] rest (by simp [width, ofOctets, le16, le32, ofBitVec])
  rw [← Ipsc.bytes] at hf
  generalize x.bytes ++ rest = m at hf hlen hdrop
  simp only [Fields, ofBitVec_w, ofBitVec_v, le16_w, le32_w, show ∀ (n : Nat) (o : Octets n), (ofOctets o).w = 8 * n from fun _ _ => rfl,
    Nat.zero_add, Nat.reduceMul, Nat.reduceAdd, and_true] at hf
  obtain ⟨f1, f2, f3, f4, f5, f6, f7, f8, f9, f10, f11, f12, f13, f14, f15, f16, f17⟩ := hf
  have s (q n : Nat) (o : Octets n) (h : q + n ≤ m.length) (hb : bitsAt m (8 * q) (8 * n) = (ofOctets o).v) : slice m q n = o.val := by
    rw [slice_bits m q n h, hb, octets_ofOctets]
  have e2 : u16be m 2 = 0x5A5A := (u16be_bits m 2 (by omega)).trans f2
  have hm : u8 m 2 = 0x5A ∧ u8 m 3 = 0x5A := by
    have h1 := u8_lt m 2
    have h2 := u8_lt m 3
    have e3 : u8 m 2 * 256 + u8 m 3 = 0x5A5A := e2
    omega
  rw [if_neg (by omega), if_neg (Classical.not_not.mpr hm), if_neg (by omega)]
  rw [s 0 2 x.source_port (by omega) f1, s 5 3 x.reserved_3 (by omega) f4, s 9 7 x.reserved_7a (by omega) f6,
    s 24 2 x.reserved_2a (by omega) f11, s 26 34 x.payload (by omega) f12, s 60 2 x.reserved_2b (by omega) f13,
    (u8_bits m 4 (by omega)).trans f3, (u8_bits m 8 (by omega)).trans f5, (u16be_bits m 16 (by omega)).trans f7,
    (u16be_bits m 18 (by omega)).trans f8, u16le_bits m 20 x.color_code (by omega) f9, (u16be_bits m 22 (by omega)).trans f10,
    (u8_bits m 62 (by omega)).trans f14, u32le_bits m 63 x.destination (by omega) f15, u32le_bits m 67 x.source (by omega) f16,
    (u8_bits m 71 (by omega)).trans f17, hdrop, Ipsc.obj]
  have : (m.length = 72) = (rest = []) := by
    rw [hlen]
    refine propext ⟨fun h => List.length_eq_zero_iff.1 (by omega), fun h => by rw [h]; rfl⟩
  simp only [this]

theorem ipsc_found {b : Bytes} (h72 : 72 ≤ b.length) (hm : u8 b 2 = 0x5A ∧ u8 b 3 = 0x5A) : ∃ (x : Ipsc) (rest : Bytes), b = x.bytes ++ rest := by
  refine ⟨{
    source_port := ⟨slice b 0 2, length_slice _ _ _ (by omega)⟩
    sequence_number := fieldAt b 32 8
    reserved_3 := ⟨slice b 5 3, length_slice _ _ _ (by omega)⟩
    packet_type := fieldAt b 64 8
    reserved_7a := ⟨slice b 9 7, length_slice _ _ _ (by omega)⟩
    timeslot := fieldAt b 128 16
    slot_type := fieldAt b 144 16
    color_code := BitVec.ofNat 16 (u16le b 20)
    frame_type := fieldAt b 176 16
    reserved_2a := ⟨slice b 24 2, length_slice _ _ _ (by omega)⟩
    payload := ⟨slice b 26 34, length_slice _ _ _ (by omega)⟩
    reserved_2b := ⟨slice b 60 2, length_slice _ _ _ (by omega)⟩
    call_type := fieldAt b 496 8
    destination := BitVec.ofNat 32 (u32le b 63)
    source := BitVec.ofNat 32 (u32le b 67)
    reserved_1b := fieldAt b 568 8 }, b.drop 72, ?_⟩
  refine begins_of_fields (by simp [width, ofOctets, le16, le32, ofBitVec]) h72 ?_
  have e2 : bitsAt b 16 16 = 0x5A5A := by
    have := u16be_bits b 2 (by omega)
    rw [u16be, hm.1, hm.2] at this
    exact this.symm
  simp only [Fields, ofBitVec_w, ofBitVec_v, le16_w, le32_w, show ∀ (n : Nat) (o : Octets n), (ofOctets o).w = 8 * n from fun _ _ => rfl,
    Nat.zero_add, Nat.reduceMul, Nat.reduceAdd, and_true, true_and, toNat_fieldAt]
  exact ⟨octetsAt_v (n := 2) b 0 (by omega), e2, octetsAt_v (n := 3) b 5 (by omega), octetsAt_v (n := 7) b 9 (by omega), le16At_v b 20 (by omega),
    octetsAt_v (n := 2) b 24 (by omega), octetsAt_v (n := 34) b 26 (by omega), octetsAt_v (n := 2) b 60 (by omega), le32At_v b 63 (by omega), le32At_v b 67 (by omega)⟩

/-- C53: `IpSiteConnectProtocol.from_bytes(b)` returns `x` exactly if `b` is a packet that means `x`, with any octets after it, which
are its extra data. -/
theorem C53_ipsc (b : Bytes) (x : IpSiteConnectProtocol) :
    fromBytes IpSiteConnectProtocol.read b = .ok x ↔ ∃ (p : Ipsc) (rest : Bytes), b = p.bytes ++ rest ∧ x = p.obj rest := by
  constructor
  · intro h
    obtain ⟨h72, h2, h3⟩ := (C19_accept b).1.1 ⟨x, h⟩
    obtain ⟨p, rest, rfl⟩ := ipsc_found h72 ⟨h2, h3⟩
    rw [ipsc_encoder] at h
    exact ⟨p, rest, rfl, (Except.ok.inj h).symm⟩
  · rintro ⟨p, rest, rfl, rfl⟩
    exact ipsc_encoder p rest

/-! ### Heartbeats -/

theorem pingPong_bytes (n : BitVec 8) : (Heartbeat.pingPong n).bytes = pingPong (UInt8.ofNat n.toNat) := by
  rw [Heartbeat.bytes, show pack f[n] = [UInt8.ofNat n.toNat] from pack_octet_value n]
  rfl

theorem heartbeat_encoder (x : Heartbeat) : fromBytes IpSiteConnectHeartbeat.read x.bytes = .ok x.obj := by
  cases x with
  | keepalive => exact (C21_keepalive 0).1 rfl
  | pingPong n =>
    rw [pingPong_bytes, (C21_pingpong _ rfl).1 _ rfl, UInt8.toNat_ofNat', Nat.mod_eq_of_lt n.isLt]
    rfl
  | unknown data h => exact C21_unknown data h.1 h.2

/-- C53: `IpSiteConnectHeartbeat.from_bytes(b)` returns `x` exactly if `b` is a heartbeat that means `x`. -/
theorem C53_heartbeat (b : Bytes) (x : IpSiteConnectHeartbeat) :
    fromBytes IpSiteConnectHeartbeat.read b = .ok x ↔ ∃ p : Heartbeat, b = p.bytes ∧ x = p.obj := by
  constructor
  · intro h
    obtain ⟨p, rfl⟩ : ∃ p : Heartbeat, b = p.bytes := by
      by_cases h1 : b.length = 1
      · obtain ⟨v, rfl⟩ := List.length_eq_one_iff.1 h1
        by_cases hv : v = 0
        · exact ⟨.keepalive, by rw [hv]; rfl⟩
        · rw [(C21_keepalive v).2 hv] at h; cases h
      by_cases h20 : b.length = 20
      · by_cases hp : ∀ s, b ≠ pingPong s
        · obtain ⟨path, hp⟩ := (C21_pingpong b h20).2 hp
          rw [hp] at h; cases h
        · push Not at hp
          obtain ⟨s, hs⟩ := hp
          refine ⟨.pingPong (BitVec.ofNat 8 s.toNat), ?_⟩
          rw [pingPong_bytes, hs, BitVec.toNat_ofNat, Nat.mod_eq_of_lt s.toNat_lt, UInt8.ofNat_toNat]
      · exact ⟨.unknown b ⟨h1, h20⟩, rfl⟩
    rw [heartbeat_encoder] at h
    exact ⟨p, rfl, (Except.ok.inj h).symm⟩
  · rintro ⟨p, rfl, rfl⟩
    exact heartbeat_encoder p

/-! ### RTP -/

theorem getLast_u8 {b : Bytes} (h : b.getLast? = some 0) : u8 b (b.length - 1) = 0 := by
  obtain ⟨a, rfl⟩ := List.getLast?_eq_some_iff.1 h
  rw [List.length_append, List.length_singleton, Nat.add_sub_cancel, u8_of_drop List.drop_left]
  rfl

theorem rtp_encoder (x : Rtp) (hx : x.ok) : fromBytes RealTimeTransportProtocol.read x.bytes = .ok x.obj := by
  refine rtp_decodes x.csrc x.few x.extension x.padding.flag x.padding.bytes x.marker x.payload_type x.sequence_number x.timestamp
    x.ssrc x.audio rfl ?_
  rcases hp : x.padding with _ | ⟨p, h⟩ | _
  · rfl
  · rw [Rtp.bytes, hp, ← List.append_assoc, ← List.append_assoc, ← List.append_assoc]
    generalize _ ++ x.audio = a
    show RealTimeTransportProtocol.padLen true (a ++ (p ++ [UInt8.ofNat (p.length + 1)])) = (p ++ [UInt8.ofNat (p.length + 1)]).length
    rw [RealTimeTransportProtocol.padLen, if_pos rfl, ← List.append_assoc, List.length_append, List.length_singleton,
      Nat.add_sub_cancel, u8_of_drop List.drop_left, UInt8.toNat_ofNat', Nat.mod_eq_of_lt (by omega), List.length_append,
      List.length_singleton]
  · exact getLast_u8 (hx hp)

theorem csrc_found (b : Bytes) : ∀ (n q : Nat), q + 4 * n ≤ b.length →
    ∃ l : List (BitVec 32), l.length = n ∧ b.drop q = l.flatMap (fun c => octets 4 c.toNat) ++ b.drop (q + 4 * n)
  | 0, q, _ => ⟨[], rfl, rfl⟩
  | n + 1, q, h => by
    obtain ⟨l, hl, hd⟩ := csrc_found b n (q + 4) (by omega)
    refine ⟨fieldAt b (8 * q) 32 :: l, by rw [List.length_cons, hl], ?_⟩
    rw [List.flatMap_cons, List.append_assoc, toNat_fieldAt, ← slice_bits b q 4 (by omega), drop_eq_slice b q 4, hd]
    congr 3
    omega

theorem extension_found (b : Bytes) (q : Nat) (h : q + 18 ≤ b.length) :
    ∃ x : RtpExtension, b.drop q = x.bytes ++ b.drop (q + 18) := by
  refine ⟨{
    identifier := fieldAt b (8 * q) 16
    length := fieldAt b (8 * q + 16) 16
    slot := fieldAt b (8 * q + 32) 7
    last := flagAt b (8 * q + 39)
    source := BitVec.ofNat 32 (u32le b (q + 5))
    destination := BitVec.ofNat 32 (u32le b (q + 9))
    call_type := fieldAt b (8 * q + 104) 8
    reserved := fieldAt b (8 * q + 112) 32 }, ?_⟩
  refine drop_of_fields rfl h ?_
  have e1 := le32At_v b (q + 5) (by omega)
  have e2 := le32At_v b (q + 9) (by omega)
  simp only [Nat.mul_add, Nat.reduceMul] at e1 e2
  simp only [Fields, ofBitVec_w, ofBitVec_v, ofBool_w, ofBool_v, le32_w, toNat_fieldAt, toNat_flagAt, Nat.add_assoc, Nat.reduceAdd,
    and_true, true_and, e1, e2, and_self]

theorem rtp_found {b : Bytes} {x : RealTimeTransportProtocol} (h : fromBytes RealTimeTransportProtocol.read b = .ok x) :
    ∃ p : Rtp, p.ok ∧ b = p.bytes := by
  obtain ⟨c1, c2, c3, c4, -⟩ := C22_errors b
  by_cases h1 : b.length < 1
  · rw [c1 h1] at h; cases h
  by_cases hv : u8 b 0 / 64 = 2
  swap
  · rw [c2 (by omega) hv] at h; cases h
  generalize hhead : 12 + 4 * (u8 b 0 % 16) = head at c3 c4
  generalize hext : (if u8 b 0 / 16 % 2 = 1 then 18 else 0) = ext at c3 c4
  generalize hpad : (if u8 b 0 / 32 % 2 = 1 then u8 b (b.length - 1) else 0) = pad at c4
  by_cases h2 : b.length < head + ext
  · rw [c3 (by omega) hv h2] at h; cases h
  by_cases h3 : b.length < head + ext + pad
  · rw [c4 (by omega) hv (by omega) h3] at h; cases h
  clear c1 c2 c3 c4 h
  have b0 : bitsAt b 0 2 = 2 := by rw [bitsAt_byte b 0 0 2 (by omega) (by omega)]; omega
  have b2 : bitsAt b 2 1 = u8 b 0 / 32 % 2 := (bitsAt_byte b 0 2 1 (by omega) (by omega)).trans (by norm_num)
  have b3 : bitsAt b 3 1 = u8 b 0 / 16 % 2 := (bitsAt_byte b 0 3 1 (by omega) (by omega)).trans (by norm_num)
  have b4 : bitsAt b 4 4 = u8 b 0 % 16 := (bitsAt_byte b 0 4 4 (by omega) (by omega)).trans (by norm_num)
  obtain ⟨csrc, hn, hd⟩ := csrc_found b (u8 b 0 % 16) 12 (by omega)
  rw [hhead] at hd
  obtain ⟨e, he, hed⟩ : ∃ e : Option RtpExtension, e.isSome = flagAt b 3 ∧
      b.drop head = e.elim [] RtpExtension.bytes ++ b.drop (head + ext) := by
    rw [flagAt, b3, ← hext]
    by_cases hx : u8 b 0 / 16 % 2 = 1
    · obtain ⟨x, hx'⟩ := extension_found b head (by rw [← hext, if_pos hx] at h2; omega)
      exact ⟨some x, by rw [hx]; rfl, by rw [if_pos hx]; exact hx'⟩
    · refine ⟨none, ?_, by rw [if_neg hx]; rfl⟩
      rw [Option.isSome_none, eq_comm, beq_eq_false_iff_ne]
      exact hx
  have key : ∀ (audio : Bytes) (p : Padding), p.flag = flagAt b 2 → b.drop (head + ext) = audio ++ p.bytes →
      b = (Rtp.mk csrc (by omega) e (flagAt b 8) (fieldAt b 9 7) (fieldAt b 16 16) (fieldAt b 32 32) (fieldAt b 64 32) audio p).bytes := by
    intro audio p hp ha
    rw [Rtp.bytes]
    dsimp only
    rw [← ha, ← hed, ← hd]
    refine begins_of_fields (by simp [width, ofBitVec, ofBool]) (by omega) ?_
    simp only [Fields, ofBitVec_w, ofBitVec_v, ofBool_w, ofBool_v, toNat_fieldAt, toNat_flagAt, he, hp, hn, Nat.zero_add, Nat.reduceAdd,
      BitVec.toNat_ofNat, Nat.reducePow, Nat.reduceMod, and_true, true_and, b0, b4]
    omega
  by_cases hf : u8 b 0 / 32 % 2 = 1
  · have hfl : flagAt b 2 = true := by rw [flagAt, b2, hf]; rfl
    rw [if_pos hf] at hpad
    by_cases hz : pad = 0
    · refine ⟨_, fun _ => ?_, key (b.drop (head + ext)) .zero hfl.symm (List.append_nil _).symm⟩
      rw [← key (b.drop (head + ext)) .zero hfl.symm (List.append_nil _).symm]
      rw [hz] at hpad
      have hlast : b.drop (b.length - 1) = [b[b.length - 1]] := by
        rw [List.drop_eq_getElem_cons (by omega), List.drop_eq_nil_of_le (by omega)]
      rw [u8_of_drop hlast] at hpad
      rw [List.getLast?_eq_getElem?, List.getElem?_eq_getElem (by omega)]
      exact congrArg some (UInt8.toNat_inj.1 hpad)
    · have hlt : pad < 256 := by rw [← hpad]; exact u8_lt _ _
      have hl : (slice b (b.length - pad) (pad - 1)).length = pad - 1 := length_slice _ _ _ (by omega)
      refine ⟨_, fun hp => (by cases hp), key (slice b (head + ext) (b.length - pad - (head + ext)))
        (.some (slice b (b.length - pad) (pad - 1)) (by omega)) hfl.symm ?_⟩
      rw [Padding.bytes, hl]
      rw [drop_eq_slice b (head + ext) (b.length - pad - (head + ext)), show head + ext + (b.length - pad - (head + ext)) = b.length - pad by omega,
        drop_eq_slice b (b.length - pad) (pad - 1), show b.length - pad + (pad - 1) = b.length - 1 by omega]
      have hlast : b.drop (b.length - 1) = [b[b.length - 1]] := by
        rw [List.drop_eq_getElem_cons (by omega), List.drop_eq_nil_of_le (by omega)]
      have hu := u8_of_drop hlast
      rw [hlast]
      congr 3
      rw [show pad - 1 + 1 = pad by omega, ← hpad, hu, UInt8.ofNat_toNat]
  · have hfl : flagAt b 2 = false := by rw [flagAt, b2, beq_eq_false_iff_ne]; exact hf
    exact ⟨_, fun hp => (by cases hp), key (b.drop (head + ext)) .none hfl.symm (List.append_nil _).symm⟩

/-- C53: `RealTimeTransportProtocol.from_bytes(b)` returns `x` exactly if `b` is an RTP packet that means `x`. -/
theorem C53_rtp (b : Bytes) (x : RealTimeTransportProtocol) :
    fromBytes RealTimeTransportProtocol.read b = .ok x ↔ ∃ p : Rtp, p.ok ∧ b = p.bytes ∧ x = p.obj := by
  constructor
  · intro h
    obtain ⟨p, hp, rfl⟩ := rtp_found h
    rw [rtp_encoder p hp] at h
    exact ⟨p, hp, rfl, (Except.ok.inj h).symm⟩
  · rintro ⟨p, hp, rfl, rfl⟩
    exact rtp_encoder p hp

-- a packet from radio 0x000901 to radio 0x00090B on timeslot 1 with two more octets
def exampleIpsc : Ipsc where
  source_port := ⟨[0x52, 0xC3], rfl⟩
  sequence_number := 7
  reserved_3 := ⟨[0, 0, 0], rfl⟩
  packet_type := 0x41
  reserved_7a := ⟨List.replicate 7 0, rfl⟩
  timeslot := 0x1111
  slot_type := 0x3333
  color_code := 1
  frame_type := 0x3333
  reserved_2a := ⟨[0, 0], rfl⟩
  payload := ⟨List.replicate 34 9, rfl⟩
  reserved_2b := ⟨[0, 0], rfl⟩
  call_type := 1
  destination := 0x00090B00
  source := 0x00090100
  reserved_1b := 0
example : fromBytes IpSiteConnectProtocol.read ([0x52, 0xC3, 0x5A, 0x5A, 7, 0, 0, 0, 0x41] ++ List.replicate 7 0 ++
      [0x11, 0x11, 0x33, 0x33, 1, 0, 0x33, 0x33, 0, 0] ++ List.replicate 34 9 ++ [0, 0, 1, 0, 0x0B, 9, 0, 0, 1, 9, 0, 0, 0xAA, 0xBB]) =
    .ok (exampleIpsc.obj [0xAA, 0xBB]) :=
  (C53_ipsc _ _).2 ⟨exampleIpsc, [0xAA, 0xBB], by decide +kernel, rfl⟩
-- without the marker there is no packet
example (x : IpSiteConnectProtocol) : fromBytes IpSiteConnectProtocol.read (List.replicate 72 0) ≠ .ok x := fun h => by
  have := ((C19_accept _).1.1 ⟨x, h⟩).2.1
  revert this; decide
example : fromBytes IpSiteConnectHeartbeat.read [0x5A, 0x5A, 0x5A, 0x5A, 0x0A, 0, 0, 0, 0x14, 0, 0, 0, 7, 0x5A, 0x59, 0x5A, 0, 0, 0, 0] =
    .ok (Heartbeat.pingPong 7#8).obj := (C53_heartbeat _ _).2 ⟨.pingPong 7#8, by decide +kernel, rfl⟩
example : fromBytes IpSiteConnectHeartbeat.read [1, 2] = .ok ⟨.unknown ⟨[1, 2]⟩⟩ :=
  (C53_heartbeat _ _).2 ⟨.unknown [1, 2] (by decide), rfl, rfl⟩
-- one source, three octets of audio, two octets of padding
example : fromBytes RealTimeTransportProtocol.read [0xA1, 0x80, 0, 5, 0, 0, 0, 6, 0, 0, 0, 7, 0, 0, 0, 8, 1, 2, 3, 0, 2] =
    .ok (Rtp.mk [8#32] (by decide) none true 0#7 5#16 6#32 7#32 [1, 2, 3] (.some [0] (by decide))).obj :=
  (C53_rtp _ _).2 ⟨⟨[8#32], by decide, none, true, 0#7, 5#16, 6#32, 7#32, [1, 2, 3], .some [0] (by decide)⟩, fun h => (by cases h),
    by decide +kernel, rfl⟩
-- the padding flag, but the last octet is 0: all of it is audio
example : fromBytes RealTimeTransportProtocol.read [0xA0, 0x80, 0, 5, 0, 0, 0, 6, 0, 0, 0, 7, 1, 2, 0] =
    .ok (Rtp.mk [] (by decide) none true 0#7 5#16 6#32 7#32 [1, 2, 0] .zero).obj :=
  (C53_rtp _ _).2 ⟨⟨[], by decide, none, true, 0#7, 5#16, 6#32, 7#32, [1, 2, 0], .zero⟩, fun _ => (by decide +kernel),
    by decide +kernel, rfl⟩

end Dmr.Wire
