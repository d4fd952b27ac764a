import Verif.Props.HyteraMessages2
/-
C16, C19, C21, C22: HRNP header, IPSC packet, IPSC heartbeat, RTP.
-/

namespace Dmr.Hytera

open Spec

/-! ### C16 -/

/-- C16: HRNP needs 7E and 12 header bytes with fields at these offsets; an HDAP frame is parsed, at offset 12, iff the
opcode byte is 00 (and its failure is the packet's failure). -/
theorem C16_layout (b : Bytes) :
    fromBytes HyteraRadioNetworkProtocol.read b =
      if b.length < 1 then .error .eof
      else if u8 b 0 ≠ 0x7E then .error (.validation "/seq/0")
      else if b.length < 12 then .error .eof
      else
        let packet (data : Option HyteraDmrApplicationProtocol) : HyteraRadioNetworkProtocol :=
          { header_identifier := [0x7E]
            version := u8 b 1
            block := u8 b 2
            opcode := resolveEnum _ (u8 b 3)
            source_id := u8 b 4
            destination_id := u8 b 5
            packet_number := u8 b 6 * 256 + u8 b 7
            hrnp_packet_length := u8 b 8 * 256 + u8 b 9
            checksum := u8 b 10 * 256 + u8 b 11
            data }
        if u8 b 3 = 0 then (HyteraDmrApplicationProtocol.spec b 12).map fun d => packet (some d.1)
        else .ok (packet none) := by
  rw [HyteraRadioNetworkProtocol.parses.fromBytes, HyteraRadioNetworkProtocol.spec]
  simp only [Nat.zero_add, fixedAt, List.length_cons, List.length_nil, upTo]
  by_cases h1 : b.length < 1
  · rw [if_pos h1, if_neg (by omega : ¬ 1 ≤ b.length)]; rfl
  have h1' : 1 ≤ b.length := by omega
  rw [if_neg h1, if_pos h1']
  by_cases h0 : u8 b 0 = 0x7E
  · have h0' := (slice_one_eq b 0 0x7E (by omega)).mpr h0
    have hne : ¬ (u8 b 0 ≠ 0x7E) := by simp [h0]
    rw [if_pos h0', if_neg hne]
    by_cases h12 : b.length < 12
    · rw [if_pos h12, if_neg (by omega : ¬ 12 ≤ b.length)]; rfl
    have h12' : 12 ≤ b.length := by omega
    rw [if_neg h12, if_pos h12']
    by_cases h3 : u8 b 3 = 0
    · simp only [h3, optPart, if_true]
      have hr := HyteraDmrApplicationProtocol.parses.range b 12 h12'
      rcases hd : HyteraDmrApplicationProtocol.spec b 12 with e | ⟨d, e⟩
      · rfl
      · have := hr d e hd
        simp only [Parsed.as, next, if_pos this]; rfl
    · simp only [h3, optPart, if_false, next, if_pos h12']; rfl
  · have h0' : ¬ slice b 0 1 = [0x7E] := fun h => h0 ((slice_one_eq b 0 0x7E (by omega)).mp h)
    rw [if_neg h0', if_pos h0]; rfl

/-- C16: data is there iff the opcode byte is 00, and then it is the HDAP frame at offset 12. -/
theorem C16_data (b : Bytes) (x : HyteraRadioNetworkProtocol) (h : fromBytes HyteraRadioNetworkProtocol.read b = .ok x) :
    12 ≤ b.length ∧ u8 b 0 = 0x7E ∧ (x.data = none ↔ u8 b 3 ≠ 0) ∧
    ∀ d, x.data = some d → ∃ e, HyteraDmrApplicationProtocol.spec b 12 = .ok (d, e) := by
  rw [C16_layout] at h
  by_cases h1 : b.length < 1
  · rw [if_pos h1] at h; cases h
  rw [if_neg h1] at h
  by_cases h0 : u8 b 0 ≠ 0x7E
  · rw [if_pos h0] at h; cases h
  rw [if_neg h0] at h
  by_cases h12 : b.length < 12
  · rw [if_pos h12] at h; cases h
  rw [if_neg h12] at h
  by_cases h3 : u8 b 3 = 0
  · simp only [h3, if_true] at h
    rcases hd : HyteraDmrApplicationProtocol.spec b 12 with e | ⟨d, e⟩
    · rw [hd] at h; cases h
    · rw [hd] at h
      cases h
      refine ⟨by omega, Classical.not_not.mp h0, by simp [h3], ?_⟩
      intro d' hd'; cases hd'
      exact ⟨e, rfl⟩
  · simp only [h3, if_false] at h
    cases h
    exact ⟨by omega, Classical.not_not.mp h0, by simp [h3], fun d hd => by cases hd⟩

example := C16_data [0x7E, 4, 0, 0, 0x20, 0x10, 0, 0, 0, 23, 0xD2, 0x10, 0x11, 0, 3, 0, 4, 10, 0, 0, 80, 0x55, 3] _ rfl

/-- A packet with a registration frame, one without data, one with a wrong marker. -/
example : (fromBytes HyteraRadioNetworkProtocol.read
    [0x7E, 4, 0, 0, 0x20, 0x10, 0, 0, 0, 23, 0xD2, 0x10, 0x11, 0, 3, 0, 4, 10, 0, 0, 80, 0x55, 3]).map
    (fun x => (x.packet_number, x.checksum, x.data.map (·.checksum))) = .ok (0, 0xD210, some 0x55) := by decide
example : (fromBytes HyteraRadioNetworkProtocol.read [0x7E, 4, 0, 0xFE, 0x20, 0x10, 0, 0, 0, 12, 0x60, 0xE1]).map
    (fun x => x.data) = .ok none := by decide
example : fromBytes HyteraRadioNetworkProtocol.read [0x7D] = .error (.validation "/seq/0") := by decide

/-! ### C19 -/

theorem slice_two_eq (b : Bytes) (o : Nat) (v w : UInt8) (h : o + 2 ≤ b.length) :
    slice b o 2 = [v, w] ↔ u8 b o = v.toNat ∧ u8 b (o + 1) = w.toNat := by
  have h1 : o < b.length := by omega
  have h2 : o + 1 < b.length := by omega
  have : slice b o 2 = [b[o], b[o + 1]] := by
    unfold slice
    rw [List.drop_eq_getElem_cons h1, List.drop_eq_getElem_cons h2]; rfl
  rw [this]
  unfold u8
  simp [List.getD, List.getElem?_eq_getElem h1, List.getElem?_eq_getElem h2, UInt8.toNat_inj]

/-- C19: an IPSC packet: when it is accepted and every one of its fields. -/
theorem C19_layout (b : Bytes) :
    fromBytes IpSiteConnectProtocol.read b =
      if b.length < 4 then .error .eof
      else if ¬ (u8 b 2 = 0x5A ∧ u8 b 3 = 0x5A) then .error (.validation "/seq/1")
      else if b.length < 72 then .error .eof
      else .ok { source_port := slice b 0 2
                 fixed_header := [0x5A, 0x5A]
                 sequence_number := u8 b 4
                 reserved_3 := slice b 5 3
                 packet_type := resolveEnum _ (u8 b 8)
                 reserved_7a := slice b 9 7
                 timeslot_raw := resolveEnum _ (u16be b 16)
                 slot_type := resolveEnum _ (u16be b 18)
                 color_code_raw := u16le b 20
                 frame_type := resolveEnum _ (u16be b 22)
                 reserved_2a := slice b 24 2
                 ipsc_payload := slice b 26 34
                 reserved_2b := slice b 60 2
                 call_type := resolveEnum _ (u8 b 62)
                 destination_radio_id_raw := u32le b 63
                 source_radio_id_raw := u32le b 67
                 reserved_1b := u8 b 71
                 extra_data := if b.length = 72 then none else some (b.drop 72) } := by
  rw [IpSiteConnectProtocol.parses.fromBytes, IpSiteConnectProtocol.spec]
  simp only [Nat.zero_add, fixedAt, List.length_cons, List.length_nil, upTo, Nat.reduceAdd]
  by_cases h4 : b.length < 4
  · rw [if_pos h4, if_neg (by omega : ¬ 4 ≤ b.length)]; rfl
  have h4' : 4 ≤ b.length := by omega
  rw [if_neg h4, if_pos h4']
  have hs := slice_two_eq b 2 0x5A 0x5A h4'
  by_cases hm : u8 b 2 = 0x5A ∧ u8 b 3 = 0x5A
  · have hne : ¬ ¬ (u8 b 2 = 0x5A ∧ u8 b 3 = 0x5A) := Classical.not_not.mpr hm
    rw [if_pos (hs.mpr hm), if_neg hne]
    by_cases h72 : b.length < 72
    · rw [if_pos h72, if_neg (by omega : ¬ 72 ≤ b.length)]; rfl
    · rw [if_neg h72, if_pos (by omega : 72 ≤ b.length)]
      have e : (if 72 = b.length then none else some (b.drop 72)) = if b.length = 72 then none else some (b.drop 72) := by
        simp only [eq_comm]
      rw [e]; rfl
  · rw [if_neg (fun h => hm (hs.mp h)), if_pos hm]; rfl

/-- C19: the packet is accepted iff it has 72 bytes and the marker; extra data exist iff there are more bytes, and are
exactly those. -/
theorem C19_accept (b : Bytes) :
    ((∃ x, fromBytes IpSiteConnectProtocol.read b = .ok x) ↔ 72 ≤ b.length ∧ u8 b 2 = 0x5A ∧ u8 b 3 = 0x5A) ∧
    ∀ x, fromBytes IpSiteConnectProtocol.read b = .ok x →
      b = b.take 72 ++ x.extra_data.getD [] ∧ (x.extra_data = none ↔ b.length = 72) ∧ x.extra_data ≠ some [] := by
  rw [C19_layout]
  by_cases h4 : b.length < 4
  · rw [if_pos h4]
    exact ⟨⟨fun ⟨_, h⟩ => (by cases h), fun h => by omega⟩, fun x hx => by cases hx⟩
  rw [if_neg h4]
  by_cases hm : u8 b 2 = 0x5A ∧ u8 b 3 = 0x5A
  · rw [if_neg (Classical.not_not.mpr hm)]
    by_cases h72 : b.length < 72
    · rw [if_pos h72]
      exact ⟨⟨fun ⟨_, h⟩ => (by cases h), fun h => by omega⟩, fun x hx => by cases hx⟩
    · rw [if_neg h72]
      refine ⟨⟨fun _ => ⟨by omega, hm⟩, fun _ => ⟨_, rfl⟩⟩, ?_⟩
      intro x hx
      cases hx
      by_cases he : b.length = 72
      · simp only [if_pos he]
        refine ⟨?_, ⟨fun _ => he, fun _ => trivial⟩, fun h => by cases h⟩
        simp [List.take_of_length_le (by omega : b.length ≤ 72)]
      · simp only [if_neg he]
        refine ⟨by simp, ⟨fun h => (by cases h), fun h => absurd h he⟩, ?_⟩
        intro h
        have := Option.some.inj h
        rw [List.drop_eq_nil_iff] at this
        omega
  · rw [if_pos hm]
    exact ⟨⟨fun ⟨_, h⟩ => (by cases h), fun h => absurd h.2 hm⟩, fun x hx => by cases hx⟩

/-- 75 bytes: three of them are extra. -/
example : (fromBytes IpSiteConnectProtocol.read
    ([0, 0, 0x5A, 0x5A, 7] ++ List.replicate 67 1 ++ [9, 8, 7])).map (fun x => (x.sequence_number, x.extra_data)) =
    .ok (7, some [9, 8, 7]) := by
  rw [C19_layout, if_neg (by decide), if_neg (by decide), if_neg (by decide)]; rfl
example : fromBytes IpSiteConnectProtocol.read [0, 0, 0x5A, 0x5B] = .error (.validation "/seq/1") := by decide

/-! ### C21 -/

/-- The ping/pong message with sequence byte `s`. -/
def pingPong (s : UInt8) : Bytes :=
  [0x5A, 0x5A, 0x5A, 0x5A, 0x0A, 0x00, 0x00, 0x00, 0x14, 0x00, 0x00, 0x00, s, 0x5A, 0x59, 0x5A, 0x00, 0x00, 0x00, 0x00]

/-- C21: one byte must be 00. -/
theorem C21_keepalive (v : UInt8) :
    (v = 0 → fromBytes IpSiteConnectHeartbeat.read [v] = .ok ⟨.keepalive ⟨[0]⟩⟩) ∧
    (v ≠ 0 → fromBytes IpSiteConnectHeartbeat.read [v] = .error (.validation "/types/keepalive/seq/0")) := by
  rw [IpSiteConnectHeartbeat.parses.fromBytes]
  have : IpSiteConnectHeartbeat.spec [v] 0 = if [v] = [0] then .ok (⟨.keepalive ⟨[0]⟩⟩, 1) else
      .error (.validation "/types/keepalive/seq/0") := by
    simp only [IpSiteConnectHeartbeat.spec, IpSiteConnectHeartbeat.Keepalive.spec, fixedAt, List.length_cons,
      List.length_nil, slice, List.drop_zero, Nat.zero_add, if_true, Nat.le_refl, List.take_succ_cons, List.take_nil]
    split <;> rfl
  rw [this]
  constructor
  · intro h; rw [h]; rfl
  · intro h; rw [if_neg (by simpa using h)]; rfl

theorem take_append_slice (b : Bytes) (i n : Nat) : b.take i ++ slice b i n = b.take (i + n) := by
  unfold slice; rw [List.take_add]

/-- C21: 20 bytes must be the ping/pong pattern with any sequence byte at offset 12. -/
theorem C21_pingpong (b : Bytes) (hl : b.length = 20) :
    (∀ s, b = pingPong s → fromBytes IpSiteConnectHeartbeat.read b =
      .ok ⟨.pingPong { header := [0x5A, 0x5A, 0x5A, 0x5A], heartbeat_identitier := [0x0A, 0, 0, 0, 0x14]
                       nullbytes := [0, 0, 0], heartbeat_seq := s.toNat
                       tail := [0x5A, 0x59, 0x5A, 0, 0, 0, 0] }⟩) ∧
    ((∀ s, b ≠ pingPong s) → ∃ path, fromBytes IpSiteConnectHeartbeat.read b = .error (.validation path)) := by
  rw [IpSiteConnectHeartbeat.parses.fromBytes, IpSiteConnectHeartbeat.spec, if_neg (by omega), if_pos hl]
  constructor
  · intro s hs
    subst hs
    rfl
  · intro hn
    simp only [IpSiteConnectHeartbeat.PingPong.spec, fixedAt, List.length_cons, List.length_nil, hl, Nat.zero_add,
      Nat.reduceAdd, Nat.reduceLeDiff, if_true]
    by_cases h1 : slice b 0 4 = [0x5A, 0x5A, 0x5A, 0x5A]
    · rw [if_pos h1]
      by_cases h2 : slice b 4 5 = [0x0A, 0, 0, 0, 0x14]
      · rw [if_pos h2]
        by_cases h3 : slice b 9 3 = [0, 0, 0]
        · rw [if_pos h3]
          by_cases h4 : slice b 13 7 = [0x5A, 0x59, 0x5A, 0, 0, 0, 0]
          · exfalso
            apply hn (b.getD 12 0)
            have e : b = b.take 20 := by rw [List.take_of_length_le (by omega)]
            have s0 : b.take 0 ++ slice b 0 4 = b.take 4 := take_append_slice b 0 4
            have s1 : b.take 4 ++ slice b 4 5 = b.take 9 := take_append_slice b 4 5
            have s2 : b.take 9 ++ slice b 9 3 = b.take 12 := take_append_slice b 9 3
            have s3 : b.take 12 ++ slice b 12 1 = b.take 13 := take_append_slice b 12 1
            have s4 : b.take 13 ++ slice b 13 7 = b.take 20 := take_append_slice b 13 7
            rw [← s4, ← s3, ← s2, ← s1, ← s0, h1, h2, h3, h4, slice_one b 12 (by omega)] at e
            exact e
          · rw [if_neg h4]; exact ⟨_, rfl⟩
        · rw [if_neg h3]; exact ⟨_, rfl⟩
      · rw [if_neg h2]; exact ⟨_, rfl⟩
    · rw [if_neg h1]; exact ⟨_, rfl⟩

example := (C21_pingpong (pingPong 7) rfl).1 7 rfl

/-- C21: every other size, including none at all, is returned verbatim. -/
theorem C21_unknown (b : Bytes) (h1 : b.length ≠ 1) (h20 : b.length ≠ 20) :
    fromBytes IpSiteConnectHeartbeat.read b = .ok ⟨.unknown ⟨b⟩⟩ := by
  rw [IpSiteConnectHeartbeat.parses.fromBytes, IpSiteConnectHeartbeat.spec, if_neg h1, if_neg h20]; rfl

example : (pingPong 7).length = 20 := rfl
example : fromBytes IpSiteConnectHeartbeat.read [] = .ok ⟨.unknown ⟨[]⟩⟩ := C21_unknown [] (by decide) (by decide)
example : ∀ s, List.replicate 20 (0x5A : UInt8) ≠ pingPong s := by
  intro s h; exact absurd (congrArg (·.getD 4 0) h : (0x5A : UInt8) = 0x0A) (by decide)

/-! ### C22 -/

/-- C22: when an RTP packet is accepted, and the exception otherwise. The header takes 12 bytes and 4 for each of the
`num_csrc` sources, an extension 18 more; the last byte is the padding length iff the padding bit is set. -/
theorem C22_errors (b : Bytes) :
    let head := 12 + 4 * (u8 b 0 % 16)
    let ext := if u8 b 0 / 16 % 2 = 1 then 18 else 0
    let pad := if u8 b 0 / 32 % 2 = 1 then u8 b (b.length - 1) else 0
    (b.length < 1 → fromBytes RealTimeTransportProtocol.read b = .error .eof) ∧
    (1 ≤ b.length → u8 b 0 / 64 ≠ 2 →
      fromBytes RealTimeTransportProtocol.read b = .error (.validation "/types/fixed_header/seq/0")) ∧
    (1 ≤ b.length → u8 b 0 / 64 = 2 → b.length < head + ext → fromBytes RealTimeTransportProtocol.read b = .error .eof) ∧
    (1 ≤ b.length → u8 b 0 / 64 = 2 → head + ext ≤ b.length → b.length < head + ext + pad →
      fromBytes RealTimeTransportProtocol.read b = .error .value) ∧
    (1 ≤ b.length → u8 b 0 / 64 = 2 → head + ext + pad ≤ b.length →
      fromBytes RealTimeTransportProtocol.read b = .ok
        { fixed_header :=
            { version := 2
              padding := u8 b 0 / 32 % 2 == 1
              extension := u8 b 0 / 16 % 2 == 1
              num_csrc := u8 b 0 % 16
              marker := u8 b 1 / 128 == 1
              payload_type := u8 b 1 % 128
              sequence_number := u16be b 2
              timestamp := u32be b 4
              ssrc := u32be b 8
              csrc := (List.range (u8 b 0 % 16)).map fun i => u32be b (12 + 4 * i) }
          header_extension :=
            if u8 b 0 / 16 % 2 = 1 then some (RealTimeTransportProtocol.HeaderExtension.spec b head) else none
          audio_data := slice b (head + ext) (b.length - (head + ext) - pad)
          m_len_padding := pad
          padding := if u8 b 0 / 32 % 2 = 1 then some (b.drop (b.length - pad)) else none }) := by
  rw [RealTimeTransportProtocol.parses.fromBytes, RealTimeTransportProtocol.spec,
    RealTimeTransportProtocol.FixedHeader.spec]
  simp only [Nat.zero_add, Nat.mul_zero, upTo]
  by_cases h1 : b.length < 1
  · rw [if_neg (by omega : ¬ 1 ≤ b.length)]
    refine ⟨fun _ => rfl, ?_, ?_, ?_, ?_⟩ <;> (intro h; omega)
  have h1' : 1 ≤ b.length := by omega
  have hb0 := u8_lt b 0
  have e0 : bitsAt b 0 2 = u8 b 0 / 64 := by
    have := bitsAt_byte b 0 0 2 (by omega) (by omega)
    simp only [Nat.mul_zero, Nat.zero_add] at this
    rw [this]; norm_num; omega
  have e4 : bitsAt b 4 4 = u8 b 0 % 16 := by
    have := bitsAt_byte b 0 4 4 (by omega) (by omega)
    simp only [Nat.mul_zero, Nat.zero_add] at this
    rw [this]; norm_num
  have e2 : flagAt b 2 = (u8 b 0 / 32 % 2 == 1) := by
    have := flagAt_byte b 0 2 (by omega) (by omega)
    simp only [Nat.mul_zero, Nat.zero_add] at this
    rw [this]; rfl
  have e3 : flagAt b 3 = (u8 b 0 / 16 % 2 == 1) := by
    have := flagAt_byte b 0 3 (by omega) (by omega)
    simp only [Nat.mul_zero, Nat.zero_add] at this
    rw [this]; rfl
  rw [if_pos h1', e0, e4, e2, e3]
  by_cases hv : u8 b 0 / 64 = 2
  · rw [if_pos hv]
    refine ⟨fun h => by omega, fun _ h => absurd hv h, ?_⟩
    simp only [h1', hv, forall_const, RealTimeTransportProtocol.padLen]
    generalize hext : (if u8 b 0 / 16 % 2 = 1 then 18 else 0) = ext
    generalize hpad : (if u8 b 0 / 32 % 2 = 1 then u8 b (b.length - 1) else 0) = pad
    generalize hn : u8 b 0 % 16 = n
    have hpad' : (if (u8 b 0 / 32 % 2 == 1) = true then u8 b (b.length - 1) else 0) = pad := by
      rw [← hpad]; simp only [beq_iff_eq]
    by_cases h12 : 12 + 4 * n ≤ b.length
    · have h12'' : 12 ≤ b.length := by omega
      have e8 : flagAt b 8 = (u8 b 1 / 128 == 1) := by
        have := flagAt_byte b 1 0 (by omega) (by omega)
        have hb1 := u8_lt b 1
        simp only [Nat.mul_one, Nat.add_zero] at this
        have e : u8 b 1 / 2 ^ (7 - 0) % 2 = u8 b 1 / 128 := by norm_num; omega
        rw [this, e]; rfl
      have e9 : bitsAt b 9 7 = u8 b 1 % 128 := by
        have := bitsAt_byte b 1 1 7 (by omega) (by omega)
        simp only [Nat.mul_one, Nat.reduceAdd] at this
        rw [this]; norm_num
      rw [if_pos h12'', if_pos h12, e8, e9]
      simp only [next, if_pos h12, optPart, hpad']
      by_cases hx : u8 b 0 / 16 % 2 = 1
      · simp only [hx, beq_self_eq_true, if_true, whole] at hext ⊢
        subst hext
        by_cases h18 : 12 + 4 * n + 18 ≤ b.length
        · simp only [if_pos h18, Parsed.as]
          refine ⟨fun h => by omega, fun _ h => by rw [if_pos h]; rfl, fun h => ?_⟩
          rw [if_neg (by omega : ¬ b.length < 12 + 4 * n + 18 + pad), ← Nat.sub_sub]
          simp only [beq_iff_eq]; rfl
        · simp only [if_neg h18, Parsed.as]
          refine ⟨fun _ => rfl, fun h => absurd h h18, fun h => by omega⟩
      · have hx' : (u8 b 0 / 16 % 2 == 1) = false := by simpa using hx
        simp only [hx, hx', if_false, if_pos h12, Bool.false_eq_true] at hext ⊢
        subst hext
        refine ⟨fun h => by omega, fun _ h => by rw [if_pos (by omega)]; rfl, fun h => ?_⟩
        simp only [Nat.add_zero] at h ⊢
        rw [if_neg (by omega : ¬ b.length < 12 + 4 * n + pad)]
        simp only [beq_iff_eq]; rfl
    · rw [if_neg h12]
      refine ⟨fun _ => ?_, fun h => by omega, fun h => by omega⟩
      split <;> rfl
  · rw [if_neg hv]
    refine ⟨fun h => by omega, fun _ _ => rfl, ?_, ?_, ?_⟩ <;> (intro _ h; exact absurd h hv)

/-- C22: the parts of an accepted packet concatenate to the input. -/
theorem C22_partition (b : Bytes) (x : RealTimeTransportProtocol) (h : fromBytes RealTimeTransportProtocol.read b = .ok x) :
    let head := 12 + 4 * x.fixed_header.csrc.length + (if x.header_extension.isSome then 18 else 0)
    b = b.take head ++ x.audio_data ++ x.padding.getD [] ∧
    x.fixed_header.csrc.length = x.fixed_header.num_csrc ∧
    (x.header_extension.isSome ↔ x.fixed_header.extension = true) ∧
    (x.padding.isSome ↔ x.fixed_header.padding = true) ∧
    (x.fixed_header.padding = true → (x.padding.getD []).length = (b.getLastD 0).toNat) ∧
    x.fixed_header.version = 2 := by
  obtain ⟨c1, c2, c3, c4, c5⟩ := C22_errors b
  by_cases h1 : b.length < 1
  · rw [c1 h1] at h; cases h
  by_cases hv : u8 b 0 / 64 = 2
  · have h1' : 1 ≤ b.length := by omega
    generalize hext : (if u8 b 0 / 16 % 2 = 1 then 18 else 0) = ext at *
    generalize hpad : (if u8 b 0 / 32 % 2 = 1 then u8 b (b.length - 1) else 0) = pad at *
    by_cases h2 : b.length < 12 + 4 * (u8 b 0 % 16) + ext
    · rw [c3 h1' hv h2] at h; cases h
    by_cases h3 : b.length < 12 + 4 * (u8 b 0 % 16) + ext + pad
    · rw [c4 h1' hv (by omega) h3] at h; cases h
    rw [c5 h1' hv (by omega)] at h
    cases h
    have hx : (if u8 b 0 / 16 % 2 = 1 then
        some (RealTimeTransportProtocol.HeaderExtension.spec b (12 + 4 * (u8 b 0 % 16))) else none).isSome =
        (u8 b 0 / 16 % 2 == 1) := by
      by_cases h : u8 b 0 / 16 % 2 = 1 <;> simp [h]
    simp only [List.length_map, List.length_range, hx, beq_iff_eq, hext]
    generalize 12 + 4 * (u8 b 0 % 16) + ext = m at *
    have hlast : b.getLastD 0 = b.getD (b.length - 1) 0 := by
      rw [List.getLastD_eq_getLast?, List.getLast?_eq_getElem?]; rfl
    refine ⟨?_, trivial, trivial, ?_, ?_, trivial⟩
    · have e1 : b.take m ++ slice b m (b.length - m - pad) = b.take (b.length - pad) := by
        rw [take_append_slice]; congr 1; omega
      rw [e1]
      by_cases hp : u8 b 0 / 32 % 2 = 1
      · simp [hp]
      · simp only [hp, if_false] at hpad ⊢
        subst hpad
        simp
    · by_cases hp : u8 b 0 / 32 % 2 = 1 <;> simp [hp]
    · intro hp
      simp only [hp, if_true] at hpad ⊢
      have : pad = (b.getLastD 0).toNat := by rw [← hpad, hlast]; rfl
      rw [← this]
      simp; omega
  · rw [c2 (by omega) hv] at h; cases h

/-- One source, an extension, three octets of padding. -/
example : ∃ x, fromBytes RealTimeTransportProtocol.read
      ([0xB1, 0x08, 0, 1, 0, 0, 0, 2, 0, 0, 0, 3] ++ [0, 0, 0, 4] ++ List.replicate 18 5 ++ [1, 2, 3, 4] ++ [0, 0, 3]) = .ok x ∧
    x.audio_data = [1, 2, 3, 4] ∧ x.fixed_header.csrc.length = 1 := by
  have h := (C22_errors ([0xB1, 0x08, 0, 1, 0, 0, 0, 2, 0, 0, 0, 3] ++ [0, 0, 0, 4] ++ List.replicate 18 5 ++ [1, 2, 3, 4] ++
    [0, 0, 3])).2.2.2.2 (by decide) (by decide) (by decide)
  exact ⟨_, h, rfl, (C22_partition _ _ h).2.1⟩

/-- Version 2 with padding: 4 audio bytes and 3 padding bytes. -/
example : (fromBytes RealTimeTransportProtocol.read
    ([0xA0, 0x08, 0, 1, 0, 0, 0, 2, 0, 0, 0, 3] ++ [1, 2, 3, 4] ++ [0, 0, 3])).map
    (fun x => (x.audio_data, x.padding)) = .ok ([1, 2, 3, 4], some [0, 0, 3]) := by
  rw [(C22_errors _).2.2.2.2 (by decide) (by decide) (by decide)]; rfl
/-- A padding length larger than the payload. -/
example : fromBytes RealTimeTransportProtocol.read
    ([0xA0, 0x08, 0, 1, 0, 0, 0, 2, 0, 0, 0, 3] ++ [1, 2, 3, 4] ++ [0, 0, 8]) = .error .value :=
  (C22_errors _).2.2.2.1 (by decide) (by decide) (by decide) (by decide)

end Dmr.Hytera
