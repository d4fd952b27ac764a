import Verif.Pack
import Verif.Spec.TransportEncode
import Verif.Props.EtsiMessages2
import Verif.Props.HomebrewMessages
import Verif.Props.HyteraFrames
/-
C51, continued: compressed IP/UDP headers, Homebrew and MMDVM packets, RTP.
(Encoders for ARS and Motorola text messages are in C38, C39; for HDAP, HRNP and HSTRP in C15–C18.)
-/

set_option linter.unusedSimpArgs false

namespace Dmr.Etsi

open Dmr.Wire

/-- C51: compressed UDP/IPv4 header; a port is written in full exactly if its id is 0. -/
theorem C51_udp_ipv4_compressed (identification : BitVec 16) (source_ip destination_ip : BitVec 4)
    (opcode_msb opcode_lsb : Bool) (source_port_id destination_port_id : BitVec 7) (source_port destination_port user_data : Bytes)
    (hs : source_port.length = if source_port_id = 0 then 2 else 0)
    (hp : destination_port.length = if destination_port_id = 0 then 2 else 0) :
    fromBytes DmrIpUdp.UdpIpv4CompressedHeader.read
      (pack [identification, source_ip, destination_ip, opcode_msb, source_port_id, opcode_lsb, destination_port_id] ++
        (source_port ++ destination_port ++ user_data)) =
    .ok { ipv4_identification := octets 2 identification.toNat
          source_ip_address_id := resolveEnum _ source_ip.toNat, destination_ip_address_id := resolveEnum _ destination_ip.toNat
          header_compression_opcode_msb := opcode_msb, udp_source_port_id := resolveEnum _ source_port_id.toNat
          header_compression_opcode_lsb := opcode_lsb, udp_destination_port_id := resolveEnum _ destination_port_id.toNat
          udp_source_port := if source_port_id = 0 then some source_port else none
          udp_destination_port := if destination_port_id = 0 then some destination_port else none
          user_data := user_data } := by
  obtain ⟨sv, hsv⟩ : ∃ v, v = source_port_id.toNat := ⟨_, rfl⟩
  obtain ⟨dv, hdv⟩ : ∃ v, v = destination_port_id.toNat := ⟨_, rfl⟩
  have cs : source_port_id = 0 ↔ sv = 0 := by rw [hsv, ← BitVec.toNat_inj]; rfl
  have cd : destination_port_id = 0 ↔ dv = 0 := by rw [hdv, ← BitVec.toNat_inj]; rfl
  simp only [cs] at hs ⊢
  simp only [cd] at hp ⊢
  rw [DmrIpUdp.UdpIpv4CompressedHeader.parses.fromBytes]
  packed
  simp only [← hsv, ← hdv] at hf ⊢
  simp only [List.length_append] at hl
  have hi := slice_of_bits m 0 2 _ (by omega) hf.1
  have h5 : 5 ≤ m.length := by omega
  obtain ⟨⟨c1, c2, -⟩, c3⟩ := chunks_of_drop (cs := [source_port, destination_port]) (rest := user_data) (by simpa using hd)
  simp only [List.flatten_cons, List.flatten_nil, List.append_nil, List.length_append] at c3
  simp only [DmrIpUdp.UdpIpv4CompressedHeader.spec, upTo, hi, h5, flagAt, hf, toNat_beq_one, whole, next, optPart, Parsed.as,
    Nat.mul_zero, Nat.zero_add, Nat.reduceMul, Nat.reduceAdd, if_true]
  by_cases hs0 : sv = 0 <;> by_cases hd0 : dv = 0 <;> simp only [hs0, hd0, if_true, if_false] at hs hp c1 c2 c3 ⊢ <;>
    simp only [hs, hp, Nat.reduceAdd, Nat.add_zero] at hl c1 c2 c3 ⊢
  · have h7 : 7 ≤ m.length := by omega
    have h9 : 9 ≤ m.length := by omega
    simp only [h7, h9, if_true, c1, c2, c3]
    rfl
  · have h7 : 7 ≤ m.length := by omega
    simp only [h7, if_true, c1, c3]
    rfl
  · have h7 : 7 ≤ m.length := by omega
    simp only [h5, h7, if_true, c2, c3]
    rfl
  · simp only [h5, if_true, c3]
    rfl

/-- Source port written out, destination port known. -/
example : fromBytes DmrIpUdp.UdpIpv4CompressedHeader.read [0, 7, 0, 0, 1, 0x0F, 0xA0, 9, 8] =
    .ok { ipv4_identification := [0, 7], source_ip_address_id := resolveEnum _ 0, destination_ip_address_id := resolveEnum _ 0
          header_compression_opcode_msb := false, udp_source_port_id := resolveEnum _ 0
          header_compression_opcode_lsb := false, udp_destination_port_id := resolveEnum _ 1
          udp_source_port := some [0x0F, 0xA0], udp_destination_port := none, user_data := [9, 8] } :=
  C51_udp_ipv4_compressed 7 0 0 false false 0 1 [0x0F, 0xA0] [] [9, 8] rfl rfl

end Dmr.Etsi

namespace Dmr.Homebrew

open Dmr.Wire

/-- C51: `DMRD` packet of the 2015 protocol, with or without the bytes for bit error rate and signal strength. -/
theorem C51_homebrew2015_dmr_data (sequence_no : BitVec 8) (source target : BitVec 24) (repeater : BitVec 32) (slot call : BitVec 1)
    (frame : BitVec 2) (data_type : BitVec 4) (stream : BitVec 32) (dmr_data : Bytes) (hdata : dmr_data.length = 33)
    (quality : Option (UInt8 × Option UInt8)) :
    fromBytes Homebrew2015.read
      (pack [0x444D5244#32, sequence_no, source, target, repeater, slot, call, frame, data_type, stream] ++
        (dmr_data ++ match quality with | none => [] | some (ber, none) => [ber] | some (ber, some rssi) => [ber, rssi])) =
    .ok { command_prefix := "DMRD".toList
          command_data := some (.typeDmrData
            { sequence_no := sequence_no.toNat, source_id := source.toNat, target_id := target.toNat
              repeater_id := repeater.toNat, slot_no := resolveEnum _ slot.toNat, call_type := resolveEnum _ call.toNat
              frame_type := resolveEnum _ frame.toNat, data_type := data_type.toNat, stream_id := stream.toNat
              dmr_data := dmr_data, bit_error_rate := quality.map (·.1.toNat), rssi := quality.bind (·.2.map (·.toNat)) }) } := by
  packed
  simp only [List.length_append, hdata] at hl
  have h53 : 53 ≤ m.length := by omega
  have hp := slice_of_bits m 0 4 _ (by omega) hf.1
  rw [Homebrew2015.of_prefix m "DMRD" hp rfl (by decide)]
  obtain ⟨⟨c1, -⟩, c3⟩ := chunks_of_drop (cs := [dmr_data]) (by simpa using hd)
  simp only [List.flatten_cons, List.flatten_nil, List.append_nil, hdata] at c1 c3
  have e1 := u8_bits m 4 (by omega)
  have e2 := u32be_bits m 11 (by omega)
  have e3 := u32be_bits m 16 (by omega)
  rw [show Homebrew2015.bodySpec "DMRD".toList m 4 = (Homebrew2015.TypeDmrData.spec m 4).as fun x => some (.typeDmrData x) from rfl]
  simp only [Homebrew2015.TypeDmrData.spec, upTo, h53, hf, e1, e2, e3, whole, next, optPart, Parsed.as, c1, 
    Nat.reduceMul, Nat.reduceAdd, if_true]
  rcases quality with _ | ⟨ber, _ | rssi⟩
  · simp only [List.length_nil] at hl
    have g1 : ¬ 53 < m.length := by omega
    simp only [g1, h53, if_false, if_true, Option.map_none, Option.bind_none]
    rfl
  · simp only [List.length_cons, List.length_nil] at hl
    have g1 : 53 < m.length := by omega
    have g2 : 54 ≤ m.length := by omega
    have g3 : ¬ 54 < m.length := by omega
    simp only [g1, g2, g3, u8_of_drop c3, if_false, if_true, Option.map_some, Option.bind_some, Option.map_none]
    rfl
  · simp only [List.length_cons, List.length_nil] at hl
    have g1 : 53 < m.length := by omega
    have g2 : 54 ≤ m.length := by omega
    have g3 : 54 < m.length := by omega
    have g4 : 55 ≤ m.length := by omega
    have c4 : m.drop 54 = [rssi] := by rw [show 54 = 53 + 1 from rfl, ← List.drop_drop, c3]; rfl
    simp only [g1, g2, g3, g4, u8_of_drop c3, u8_of_drop c4, if_true, Option.map_some, Option.bind_some]
    rfl

/-- A packet without quality bytes, and one with both. -/
example : (fromBytes Homebrew2015.read (pack [0x444D5244#32, 1#8, 2#24, 3#24, 4#32, 1#1, 0#1, 2#2, 5#4, 6#32] ++ (List.replicate 33 7 ++ []))).toBool ∧
    (fromBytes Homebrew2015.read (pack [0x444D5244#32, 1#8, 2#24, 3#24, 4#32, 1#1, 0#1, 2#2, 5#4, 6#32] ++ (List.replicate 33 7 ++ [8, 9]))).toBool := by
  constructor
  · rw [C51_homebrew2015_dmr_data _ _ _ _ _ _ _ _ _ _ rfl none]; rfl
  · rw [C51_homebrew2015_dmr_data _ _ _ _ _ _ _ _ _ _ rfl (some (8, some 9))]; rfl

/-- C51: `DMRD` packet of the MMDVM protocol, with or without the bytes for bit error rate and signal strength. -/
theorem C51_mmdvm2020_dmr_data (sequence_no : BitVec 8) (source target : BitVec 24) (repeater : BitVec 32) (slot call : BitVec 1)
    (frame : BitVec 2) (data_type : BitVec 4) (stream : BitVec 32) (dmr_data : Bytes) (hdata : dmr_data.length = 33)
    (quality : Option (UInt8 × Option UInt8)) :
    fromBytes Mmdvm2020.read
      (pack [0x444D5244#32, sequence_no, source, target, repeater, slot, call, frame, data_type, stream] ++
        (dmr_data ++ match quality with | none => [] | some (ber, none) => [ber] | some (ber, some rssi) => [ber, rssi])) =
    .ok { command_prefix := "DMRD".toList
          command_data := some (.typeDmrData
            { sequence_no := sequence_no.toNat, source_id := source.toNat, target_id := target.toNat
              repeater_id := repeater.toNat, slot_no := resolveEnum _ slot.toNat, call_type := resolveEnum _ call.toNat
              frame_type := resolveEnum _ frame.toNat, data_type := data_type.toNat, stream_id := stream.toNat
              dmr_data := dmr_data, bit_error_rate := quality.map (·.1.toNat), rssi := quality.bind (·.2.map (·.toNat)) }) } := by
  packed
  simp only [List.length_append, hdata] at hl
  have h53 : 53 ≤ m.length := by omega
  have hp := slice_of_bits m 0 4 _ (by omega) hf.1
  rw [Mmdvm2020.of_prefix m "DMRD" hp rfl (by decide)]
  obtain ⟨⟨c1, -⟩, c3⟩ := chunks_of_drop (cs := [dmr_data]) (by simpa using hd)
  simp only [List.flatten_cons, List.flatten_nil, List.append_nil, hdata] at c1 c3
  have e1 := u8_bits m 4 (by omega)
  have e2 := u32be_bits m 11 (by omega)
  have e3 := u32be_bits m 16 (by omega)
  rw [show Mmdvm2020.bodySpec "DMRD".toList m 4 = (Mmdvm2020.TypeDmrData.spec m 4).as fun x => some (.typeDmrData x) from rfl]
  simp only [Mmdvm2020.TypeDmrData.spec, upTo, h53, hf, e1, e2, e3, whole, next, optPart, Parsed.as, c1, 
    Nat.reduceMul, Nat.reduceAdd, if_true]
  rcases quality with _ | ⟨ber, _ | rssi⟩
  · simp only [List.length_nil] at hl
    have g1 : ¬ 53 < m.length := by omega
    simp only [g1, h53, if_false, if_true, Option.map_none, Option.bind_none]
    rfl
  · simp only [List.length_cons, List.length_nil] at hl
    have g1 : 53 < m.length := by omega
    have g2 : 54 ≤ m.length := by omega
    have g3 : ¬ 54 < m.length := by omega
    simp only [g1, g2, g3, u8_of_drop c3, if_false, if_true, Option.map_some, Option.bind_some, Option.map_none]
    rfl
  · simp only [List.length_cons, List.length_nil] at hl
    have g1 : 53 < m.length := by omega
    have g2 : 54 ≤ m.length := by omega
    have g3 : 54 < m.length := by omega
    have g4 : 55 ≤ m.length := by omega
    have c4 : m.drop 54 = [rssi] := by rw [show 54 = 53 + 1 from rfl, ← List.drop_drop, c3]; rfl
    simp only [g1, g2, g3, g4, u8_of_drop c3, u8_of_drop c4, if_true, Option.map_some, Option.bind_some]
    rfl

example := C51_mmdvm2020_dmr_data (dmr_data := List.replicate 33 7) (hdata := rfl) (quality := some (3, some 100))

/-- C51: `DMRG` position report. -/
theorem C51_mmdvm2020_position (radio : BitVec 24) (reserved : BitVec 4) (error : BitVec 3) (longitude : BitVec 25)
    (latitude : BitVec 24) (more : Bytes) :
    fromBytes Mmdvm2020.read (pack [0x444D5247#32, radio, reserved, error, longitude, latitude] ++ more) =
    .ok { command_prefix := "DMRG".toList
          command_data := some (.typeRadioPosition
            { radio_id := radio.toNat, reserved := reserved.toNat, position_error := resolveEnum _ error.toNat
              longitude := longitude.toNat, latitude := latitude.toNat }) } := by
  packed
  have hp := slice_of_bits m 0 4 _ (by omega) hf.1
  have h14 : 14 ≤ m.length := by omega
  rw [Mmdvm2020.of_prefix m "DMRG" hp rfl (by decide)]
  rw [show Mmdvm2020.bodySpec "DMRG".toList m 4 = (whole 10 Mmdvm2020.TypeRadioPosition.spec m 4).as fun x => some (.typeRadioPosition x) from rfl]
  simp only [whole, Parsed.as, Mmdvm2020.TypeRadioPosition.spec, hf, h14, Nat.reduceMul, Nat.reduceAdd, if_true]
  rfl

/-- C51: `RPTC` configuration packet. The first octet of the repeater id must be below 128 and other than `L`:
see C31. -/
theorem C51_homebrew2015_configuration (repeater : BitVec 32) (hid : repeater.toNat / 2 ^ 24 < 128) (hL : repeater.toNat / 2 ^ 24 ≠ 0x4C)
    (call_sign : Ascii 8) (rx_freq : Ascii 9) (tx_freq : Ascii 9) (tx_power : Ascii 2) (color_code : Ascii 2)
    (latitude : Ascii 8) (longitude : Ascii 9) (antenna_height_above_ground : Ascii 3) (location : Ascii 20)
    (description : Ascii 20) (url : Ascii 124) (software_id : Ascii 40) (package_id : Ascii 40) {k : Nat} (rest : Ascii k) :
    fromBytes Homebrew2015.read
      (pack [0x52505443#32, repeater] ++ (
        call_sign.bytes ++ rx_freq.bytes ++ tx_freq.bytes ++ tx_power.bytes ++ color_code.bytes ++ latitude.bytes ++
        longitude.bytes ++ antenna_height_above_ground.bytes ++ location.bytes ++ description.bytes ++ url.bytes ++
        software_id.bytes ++ package_id.bytes ++ rest.bytes)) =
    .ok { command_prefix := "RPTC".toList
          command_data := some (.typeRepeaterConfigurationOrClosing ⟨.typeRepeaterConfiguration
            { repeater_id := repeater.toNat, call_sign := call_sign.1, rx_freq := rx_freq.1, tx_freq := tx_freq.1,
              tx_power := tx_power.1, color_code := color_code.1, latitude := latitude.1, longitude := longitude.1,
              antenna_height_above_ground := antenna_height_above_ground.1, location := location.1,
              description := description.1, url := url.1, software_id := software_id.1, package_id := package_id.1,
              unparsed_data := rest.1 }⟩) } := by
  packed
  have hp := slice_of_bits m 0 4 _ (by omega) hf.1
  rw [Homebrew2015.of_prefix m "RPTC" hp rfl (by decide)]
  rw [show Homebrew2015.bodySpec "RPTC".toList m 4 = (Homebrew2015.TypeRepeaterConfigurationOrClosing.spec m 4).as fun x =>
    some (.typeRepeaterConfigurationOrClosing x) from rfl]
  obtain ⟨ch, cr⟩ := chunks_of_drop (m := m) (off := 8) (cs := [call_sign.bytes, rx_freq.bytes, tx_freq.bytes, tx_power.bytes, color_code.bytes, latitude.bytes, longitude.bytes, antenna_height_above_ground.bytes, location.bytes, description.bytes, url.bytes, software_id.bytes, package_id.bytes]) (rest := rest.bytes)
    (by rw [hd]; simp only [List.flatten_cons, List.flatten_nil, List.append_assoc, List.append_nil, List.nil_append])
  simp only [List.flatten_cons, List.flatten_nil, List.append_nil, List.length_append, Chunks, call_sign.length_bytes, rx_freq.length_bytes, tx_freq.length_bytes, tx_power.length_bytes, color_code.length_bytes, latitude.length_bytes, longitude.length_bytes, antenna_height_above_ground.length_bytes, location.length_bytes, description.length_bytes, url.length_bytes, software_id.length_bytes, package_id.length_bytes,
    Nat.reduceAdd, and_true] at ch cr hl
  obtain ⟨c0, c1, c2, c3, c4, c5, c6, c7, c8, c9, c10, c11, c12⟩ := ch
  have g16 : 16 ≤ m.length := by omega
  have g25 : 25 ≤ m.length := by omega
  have g34 : 34 ≤ m.length := by omega
  have g36 : 36 ≤ m.length := by omega
  have g38 : 38 ≤ m.length := by omega
  have g46 : 46 ≤ m.length := by omega
  have g55 : 55 ≤ m.length := by omega
  have g58 : 58 ≤ m.length := by omega
  have g78 : 78 ≤ m.length := by omega
  have g98 : 98 ≤ m.length := by omega
  have g222 : 222 ≤ m.length := by omega
  have g262 : 262 ≤ m.length := by omega
  have g302 : 302 ≤ m.length := by omega
  have h5 : 5 ≤ m.length := by omega
  have h8 : 8 ≤ m.length := by omega
  have e1 := u32be_bits m 4 (by omega)
  rw [hf.2] at e1
  have e2 : u8 m 4 = repeater.toNat / 2 ^ 24 := by
    have := u8_lt m 5
    have := u8_lt m 6
    have := u8_lt m 7
    rw [← e1, u32be]
    simp only [Nat.reduceAdd, Nat.reducePow]
    omega
  have g0 : ¬ 128 ≤ u8 m 4 := by rw [e2]; omega
  have g1 : ¬ u8 m 4 = 0x4C := by rw [e2]; exact hL
  simp only [Homebrew2015.TypeRepeaterConfigurationOrClosing.spec, Homebrew2015.TypeRepeaterConfiguration.spec, upTo, textAt, decoded, h5, h8, g0, g1,
    Nat.reduceAdd, g16, g25, g34, g36, g38, g46, g55, g58, g78, g98, g222, g262, g302, c0, c1, c2, c3, c4, c5, c6, c7, c8, c9, c10, c11, c12, cr, call_sign.decode, rx_freq.decode, tx_freq.decode, tx_power.decode, color_code.decode, latitude.decode, longitude.decode, antenna_height_above_ground.decode, location.decode, description.decode, url.decode, software_id.decode, package_id.decode, rest.decode, e1,
    if_true, if_false]
  rfl

example := @C51_homebrew2015_configuration 0x230001#32 (by decide) (by decide)

/-- C51: `RPTC` configuration packet. The first octet of the repeater id must be below 128 and other than `L`:
see C31. -/
theorem C51_mmdvm2020_configuration (repeater : BitVec 32) (hid : repeater.toNat / 2 ^ 24 < 128) (hL : repeater.toNat / 2 ^ 24 ≠ 0x4C)
    (call_sign : Ascii 8) (rx_freq : Ascii 9) (tx_freq : Ascii 9) (tx_power : Ascii 2) (color_code : Ascii 2)
    (latitude : Ascii 8) (longitude : Ascii 9) (antenna_height_above_ground : Ascii 3) (location : Ascii 20)
    (description : Ascii 19) (slots : Ascii 1) (url : Ascii 124) (software_id : Ascii 40) (package_id : Ascii 40) {k : Nat} (rest : Ascii k) :
    fromBytes Mmdvm2020.read
      (pack [0x52505443#32, repeater] ++ (
        call_sign.bytes ++ rx_freq.bytes ++ tx_freq.bytes ++ tx_power.bytes ++ color_code.bytes ++ latitude.bytes ++
        longitude.bytes ++ antenna_height_above_ground.bytes ++ location.bytes ++ description.bytes ++ slots.bytes
        ++ url.bytes ++ software_id.bytes ++ package_id.bytes ++ rest.bytes)) =
    .ok { command_prefix := "RPTC".toList
          command_data := some (.typeRepeaterConfigurationOrClosing ⟨.typeRepeaterConfiguration
            { repeater_id := repeater.toNat, call_sign := call_sign.1, rx_freq := rx_freq.1, tx_freq := tx_freq.1,
              tx_power := tx_power.1, color_code := color_code.1, latitude := latitude.1, longitude := longitude.1,
              antenna_height_above_ground := antenna_height_above_ground.1, location := location.1,
              description := description.1, slots := slots.1, url := url.1, software_id := software_id.1,
              package_id := package_id.1, unparsed_data := rest.1 }⟩) } := by
  packed
  have hp := slice_of_bits m 0 4 _ (by omega) hf.1
  rw [Mmdvm2020.of_prefix m "RPTC" hp rfl (by decide)]
  rw [show Mmdvm2020.bodySpec "RPTC".toList m 4 = (Mmdvm2020.TypeRepeaterConfigurationOrClosing.spec m 4).as fun x =>
    some (.typeRepeaterConfigurationOrClosing x) from rfl]
  obtain ⟨ch, cr⟩ := chunks_of_drop (m := m) (off := 8) (cs := [call_sign.bytes, rx_freq.bytes, tx_freq.bytes, tx_power.bytes, color_code.bytes, latitude.bytes, longitude.bytes, antenna_height_above_ground.bytes, location.bytes, description.bytes, slots.bytes, url.bytes, software_id.bytes, package_id.bytes]) (rest := rest.bytes)
    (by rw [hd]; simp only [List.flatten_cons, List.flatten_nil, List.append_assoc, List.append_nil, List.nil_append])
  simp only [List.flatten_cons, List.flatten_nil, List.append_nil, List.length_append, Chunks, call_sign.length_bytes, rx_freq.length_bytes, tx_freq.length_bytes, tx_power.length_bytes, color_code.length_bytes, latitude.length_bytes, longitude.length_bytes, antenna_height_above_ground.length_bytes, location.length_bytes, description.length_bytes, slots.length_bytes, url.length_bytes, software_id.length_bytes, package_id.length_bytes,
    Nat.reduceAdd, and_true] at ch cr hl
  obtain ⟨c0, c1, c2, c3, c4, c5, c6, c7, c8, c9, c10, c11, c12, c13⟩ := ch
  have g16 : 16 ≤ m.length := by omega
  have g25 : 25 ≤ m.length := by omega
  have g34 : 34 ≤ m.length := by omega
  have g36 : 36 ≤ m.length := by omega
  have g38 : 38 ≤ m.length := by omega
  have g46 : 46 ≤ m.length := by omega
  have g55 : 55 ≤ m.length := by omega
  have g58 : 58 ≤ m.length := by omega
  have g78 : 78 ≤ m.length := by omega
  have g97 : 97 ≤ m.length := by omega
  have g98 : 98 ≤ m.length := by omega
  have g222 : 222 ≤ m.length := by omega
  have g262 : 262 ≤ m.length := by omega
  have g302 : 302 ≤ m.length := by omega
  have h5 : 5 ≤ m.length := by omega
  have h8 : 8 ≤ m.length := by omega
  have e1 := u32be_bits m 4 (by omega)
  rw [hf.2] at e1
  have e2 : u8 m 4 = repeater.toNat / 2 ^ 24 := by
    have := u8_lt m 5
    have := u8_lt m 6
    have := u8_lt m 7
    rw [← e1, u32be]
    simp only [Nat.reduceAdd, Nat.reducePow]
    omega
  have g0 : ¬ 128 ≤ u8 m 4 := by rw [e2]; omega
  have g1 : ¬ u8 m 4 = 0x4C := by rw [e2]; exact hL
  simp only [Mmdvm2020.TypeRepeaterConfigurationOrClosing.spec, Mmdvm2020.TypeRepeaterConfiguration.spec, upTo, textAt, decoded, h5, h8, g0, g1,
    Nat.reduceAdd, g16, g25, g34, g36, g38, g46, g55, g58, g78, g97, g98, g222, g262, g302, c0, c1, c2, c3, c4, c5, c6, c7, c8, c9, c10, c11, c12, c13, cr, call_sign.decode, rx_freq.decode, tx_freq.decode, tx_power.decode, color_code.decode, latitude.decode, longitude.decode, antenna_height_above_ground.decode, location.decode, description.decode, slots.decode, url.decode, software_id.decode, package_id.decode, rest.decode, e1,
    if_true, if_false]
  rfl

example := @C51_mmdvm2020_configuration 0x230001#32 (by decide) (by decide)

end Dmr.Homebrew

namespace Dmr.Hytera

open Dmr.Wire

/-- The sources of an RTP header. -/
theorem csrc_of_drop {m : Bytes} : ∀ {l : List (BitVec 32)} {q : Nat} {rest : Bytes},
    m.drop q = l.flatMap (fun x => octets 4 x.toNat) ++ rest →
    (List.range l.length).map (fun i => u32be m (q + 4 * i)) = l.map BitVec.toNat
  | [], _, _, _ => rfl
  | x :: l, q, rest, h => by
    rw [List.flatMap_cons, List.append_assoc] at h
    have hq : q + 4 ≤ m.length := by
      have := congrArg List.length h
      rw [List.length_drop, List.length_append, length_octets] at this
      omega
    have ih := csrc_of_drop (m := m) (l := l) (q := q + 4) (rest := rest)
      (by rw [← List.drop_drop, h, List.drop_append_of_le_length (by rw [length_octets])]; simp [List.drop_eq_nil_of_le, length_octets])
    rw [List.length_cons, List.range_succ_eq_map, List.map_cons, List.map_map, List.map_cons]
    refine List.cons_eq_cons.mpr ⟨?_, Eq.trans ?_ ih⟩
    · rw [u32be_bits m _ (by omega), ← beVal_slice m _ 4 (by omega), slice, Nat.mul_zero, Nat.add_zero, h,
        List.take_append_of_le_length (by rw [length_octets]), List.take_of_length_le (by rw [length_octets]), beVal_octets,
        Nat.mod_eq_of_lt (by have := x.isLt; omega)]
    · refine List.map_congr_left fun i _ => ?_
      simp only [Function.comp, Nat.succ_eq_add_one, Nat.mul_add, Nat.mul_one, Nat.add_assoc, Nat.add_comm 4]

theorem extension_of_drop {m : Bytes} {q : Nat} {x : RtpExtension} {rest : Bytes} (h : m.drop q = x.bytes ++ rest) :
    q + 18 ≤ m.length ∧ RealTimeTransportProtocol.HeaderExtension.spec m q = x.object := by
  have hl : q + 18 ≤ m.length := by
    have := congrArg List.length h
    simp only [List.length_drop, List.length_append, RtpExtension.bytes, length_pack, width, ofBitVec_w, ofBool_w, le32_w,
      Nat.reduceAdd, Nat.reduceDiv] at this
    omega
  refine ⟨hl, ?_⟩
  have hf := fields_of_drop (by simp only [width, ofBitVec_w, ofBool_w, le32_w, Nat.reduceAdd, Nat.reduceMod]) h (by omega)
  simp only [Fields, ofBitVec_w, ofBitVec_v, ofBool_w, ofBool_v, le32_w, Nat.add_assoc, Nat.reduceAdd, and_true] at hf
  obtain ⟨f1, f2, f3, f4, f5, f6, f7, f8⟩ := hf
  have e1 := u16be_bits m q (by omega)
  have e2 := u16be_bits m (q + 2) (by omega)
  have e3 := u32le_bits m (q + 5) x.source (by omega) (by rw [Nat.mul_add]; exact f5)
  have e4 := u32le_bits m (q + 9) x.destination (by omega) (by rw [Nat.mul_add]; exact f6)
  have e5 := u8_bits m (q + 13) (by omega)
  have e6 := slice_of_bits m (q + 14) 4 x.reserved.toNat (by omega) (by rw [Nat.mul_add]; exact f8)
  simp only [Nat.mul_add, Nat.reduceMul] at e2 e5
  simp only [RealTimeTransportProtocol.HeaderExtension.spec, RadioId.spec, flagAt, e1, e2, e3, e4, e5, e6, f1, f2, f3, f4, f7, toNat_beq_one,
    RtpExtension.object]

/-- An RTP packet whose last `tail.length` octets are padding, as its padding flag and its last octet say. -/
theorem rtp_decodes (csrc : List (BitVec 32)) (hc : csrc.length < 16) (extension : Option RtpExtension) (flag : Bool) (tail : Bytes)
    (marker : Bool) (payload_type : BitVec 7) (sequence_number : BitVec 16) (timestamp ssrc : BitVec 32) (audio : Bytes) {b : Bytes}
    (hb : b = pack [2#2, flag, extension.isSome, BitVec.ofNat 4 csrc.length, marker, payload_type, sequence_number, timestamp, ssrc] ++
        (csrc.flatMap (fun x => octets 4 x.toNat) ++ (extension.elim [] RtpExtension.bytes ++ (audio ++ tail))))
    (hp : RealTimeTransportProtocol.padLen flag b = tail.length) :
    fromBytes RealTimeTransportProtocol.read b =
    .ok { fixed_header :=
            { version := 2, padding := flag, extension := extension.isSome, num_csrc := csrc.length, marker := marker
              payload_type := payload_type.toNat, sequence_number := sequence_number.toNat, timestamp := timestamp.toNat
              ssrc := ssrc.toNat, csrc := csrc.map BitVec.toNat }
          header_extension := extension.map RtpExtension.object
          audio_data := audio
          m_len_padding := tail.length
          padding := if flag then some tail else none } := by
  rw [RealTimeTransportProtocol.parses.fromBytes]
  revert hp
  rw [hb]
  clear hb
  packed
  intro hp
  have hn : csrc.length % 16 = csrc.length := Nat.mod_eq_of_lt hc
  have hfl : (csrc.flatMap fun x => octets 4 x.toNat).length = 4 * csrc.length := by
    clear hd hl hf hc hn
    induction csrc with
    | nil => rfl
    | cons x l ih => simp only [List.flatMap_cons, List.length_append, ih, length_octets, List.length_cons]; omega
  rw [hn] at hf
  have hcs := csrc_of_drop hd
  have hd2 : m.drop (12 + 4 * csrc.length) = extension.elim [] RtpExtension.bytes ++ (audio ++ tail) := by
    rw [← List.drop_drop, hd, ← hfl, List.drop_left]
  rw [List.length_append, hfl] at hl
  have g1 : 1 ≤ m.length := by omega
  have g12 : 12 ≤ m.length := by omega
  have gh : 12 + 4 * csrc.length ≤ m.length := by omega
  have e2 := u16be_bits m 2 (by omega)
  have e4 := u32be_bits m 4 (by omega)
  have e8 := u32be_bits m 8 (by omega)
  simp only [RealTimeTransportProtocol.spec, RealTimeTransportProtocol.FixedHeader.spec, upTo, next, flagAt, hf, e2, e4, e8, hcs,
    toNat_beq_one, Nat.mul_zero, Nat.zero_add, Nat.reduceMul, Nat.reduceAdd, g1, g12, gh, if_true]
  generalize 12 + 4 * csrc.length = q at hd2 gh
  clear hl hd hf hn hfl hcs g1 g12 e2 e4 e8
  obtain ⟨e, he, hde, hx⟩ : ∃ e, e ≤ m.length ∧ m.drop e = audio ++ tail ∧
      optPart (extension.isSome = true) (whole 18 RealTimeTransportProtocol.HeaderExtension.spec m q) q =
        .ok (extension.map RtpExtension.object, e) := by
    rcases extension with _ | x
    · exact ⟨q, gh, hd2, rfl⟩
    · obtain ⟨a, b⟩ := extension_of_drop hd2
      refine ⟨q + 18, a, ?_, ?_⟩
      · have hb : x.bytes.length = 18 := by
          simp only [RtpExtension.bytes, length_pack, width, ofBitVec_w, ofBool_w, le32_w, Nat.reduceAdd, Nat.reduceDiv]
        rw [← List.drop_drop, hd2, ← hb, Option.elim_some, List.drop_left]
      · simp only [optPart, whole, Parsed.as, Option.isSome_some, if_true, if_pos a, b, Option.map_some]
  rw [hx]
  simp only [he, if_true]
  have hle := congrArg List.length hde
  rw [List.length_drop, List.length_append] at hle
  have h1 : ¬ m.length < e + tail.length := by omega
  have h2 : slice m e (m.length - e - tail.length) = audio := by
    rw [slice, hde, show m.length - e - tail.length = audio.length by omega, List.take_left]
  have h3 : m.drop (m.length - tail.length) = tail := by
    rw [show m.length - tail.length = e + audio.length by omega, ← List.drop_drop, hde, List.drop_left]
  simp only [hp, h1, h2, h3, if_false]
  rfl

/-- C51: RTP packet with any number of sources, with or without extension and padding. `pad` are the padding octets in front of the
count. -/
theorem C51_rtp (csrc : List (BitVec 32)) (hc : csrc.length < 16) (extension : Option RtpExtension) (pad : Option Bytes)
    (hp : ∀ p, pad = some p → p.length < 255) (marker : Bool) (payload_type : BitVec 7) (sequence_number : BitVec 16)
    (timestamp ssrc : BitVec 32) (audio : Bytes) :
    fromBytes RealTimeTransportProtocol.read
      (pack [2#2, pad.isSome, extension.isSome, BitVec.ofNat 4 csrc.length, marker, payload_type, sequence_number, timestamp, ssrc] ++
        (csrc.flatMap (fun x => octets 4 x.toNat) ++ (extension.elim [] RtpExtension.bytes ++ (audio ++
          pad.elim [] fun p => p ++ [UInt8.ofNat (p.length + 1)])))) =
    .ok { fixed_header :=
            { version := 2, padding := pad.isSome, extension := extension.isSome, num_csrc := csrc.length, marker := marker
              payload_type := payload_type.toNat, sequence_number := sequence_number.toNat, timestamp := timestamp.toNat
              ssrc := ssrc.toNat, csrc := csrc.map BitVec.toNat }
          header_extension := extension.map RtpExtension.object
          audio_data := audio
          m_len_padding := pad.elim 0 fun p => p.length + 1
          padding := pad.map fun p => p ++ [UInt8.ofNat (p.length + 1)] } := by
  rcases pad with _ | p
  · exact rtp_decodes csrc hc extension false [] marker payload_type sequence_number timestamp ssrc audio rfl rfl
  · have hp' := hp p rfl
    have hlast : ∀ a : Bytes, RealTimeTransportProtocol.padLen true (a ++ (p ++ [UInt8.ofNat (p.length + 1)])) = p.length + 1 := by
      intro a
      rw [RealTimeTransportProtocol.padLen, if_pos rfl, ← List.append_assoc, List.length_append, List.length_singleton,
        Nat.add_sub_cancel, u8_of_drop List.drop_left, UInt8.toNat_ofNat', Nat.mod_eq_of_lt (by omega)]
    refine (rtp_decodes csrc hc extension true (p ++ [UInt8.ofNat (p.length + 1)]) marker payload_type sequence_number timestamp ssrc audio
      rfl ?_).trans ?_
    · rw [← List.append_assoc, ← List.append_assoc, ← List.append_assoc, hlast, List.length_append, List.length_singleton]
    · rw [List.length_append, List.length_singleton]
      rfl

/-- Two sources, no extension, three octets of padding. -/
example : (fromBytes RealTimeTransportProtocol.read
    (pack [2#2, true, false, 2#4, true, 96#7, 5#16, 6#32, 7#32] ++ ([8#32, 9#32].flatMap (fun x => octets 4 x.toNat) ++ ([] ++
      ([1, 2, 3] ++ ([0, 0] ++ [3])))))).map (fun x => (x.fixed_header.csrc, x.audio_data, x.m_len_padding)) =
    .ok ([8, 9], [1, 2, 3], 3) := by
  have := C51_rtp [8#32, 9#32] (by decide) none (some [0, 0]) (by rintro _ ⟨⟩; decide) true 96#7 5#16 6#32 7#32 [1, 2, 3]
  exact congrArg (Except.map _) this

end Dmr.Hytera
