import Verif.Props.EtsiMessages
/-
C26, C27, C28: data blocks, compressed UDP/IPv4 header, full link control.
-/

set_option linter.unusedSimpArgs false

namespace Dmr.Etsi

open Dmr.Hytera (slice_two_eq take_append_slice)

/-! ### C26 -/

/-- `r` accepts exactly the inputs of at least `n` bytes, other inputs raise EOFError, and the parts of the accepted
object, in the order given by `parts`, are the first `n` bytes of the input. -/
def Partitions (r : Rd α) (n : Nat) (parts : α → List Bytes) : Prop :=
  ∀ b : Bytes, (b.length < n → fromBytes r b = .error .eof) ∧
    (n ≤ b.length → ∃ x, fromBytes r b = .ok x ∧ (parts x).flatten = b.take n)

/-- The two bytes that a 7 bit serial number and a 9 bit CRC make up. -/
def serialCrc (serial crc9 : Nat) : Bytes := [UInt8.ofNat (serial * 2 + crc9 / 256), UInt8.ofNat (crc9 % 256)]

theorem bits_pair (b : Bytes) (h : 2 ≤ b.length) :
    serialCrc (bitsAt b 0 7) (bitsAt b 7 9) = slice b 0 2 ∧ bitsAt b 0 7 = u8 b 0 / 2 ∧
    bitsAt b 7 9 = u8 b 0 % 2 * 256 + u8 b 1 := by
  have hb := u8_lt b 0
  have hb1 := u8_lt b 1
  have e0 : bitsAt b 0 7 = u8 b 0 / 2 := by
    have := bitsAt_byte b 0 0 7 (by omega) (by omega)
    simp only [Nat.mul_zero, Nat.zero_add] at this
    rw [this]; norm_num; omega
  have e7 : bitsAt b 7 1 = u8 b 0 % 2 := by
    have := bitsAt_byte b 0 7 1 (by omega) (by omega)
    simp only [Nat.mul_zero, Nat.zero_add] at this
    rw [this]; norm_num
  have e8 : bitsAt b 8 8 = u8 b 1 := by
    have := bitsAt_byte b 1 0 8 (by omega) (by omega)
    simp only [Nat.mul_one, Nat.add_zero] at this
    rw [this]; norm_num; omega
  have e9 : bitsAt b 7 9 = u8 b 0 % 2 * 256 + u8 b 1 := by
    have := bitsAt_add b 7 1 8 (by omega)
    simp only [Nat.reduceAdd] at this
    rw [this, e7, e8]; norm_num
  refine ⟨?_, e0, e9⟩
  have h1 : u8 b 0 / 2 * 2 + (u8 b 0 % 2 * 256 + u8 b 1) / 256 = u8 b 0 := by omega
  have h2 : (u8 b 0 % 2 * 256 + u8 b 1) % 256 = u8 b 1 := by omega
  rw [serialCrc, e0, e9, h1, h2]
  symm
  rw [slice_two_eq b 0 _ _ h]
  exact ⟨(UInt8.toNat_ofNat_of_lt hb).symm, (UInt8.toNat_ofNat_of_lt hb1).symm⟩

theorem flatten_slices (b : Bytes) (n m : Nat) : slice b 0 n ++ slice b n m = b.take (n + m) := by
  rw [← take_append_slice]; rfl

/-- C26: `UdtLastBlock`, 12 bytes: 10 bytes of user data, 2 bytes of message CRC. -/
theorem C26_UdtLastBlock : Partitions DmrData.UdtLastBlock.read 12 (fun x => [x.user_data, x.message_crc16]) ∧
    ∀ b : Bytes, ∀ x, fromBytes DmrData.UdtLastBlock.read b = .ok x → x.user_data = slice b 0 10 ∧ x.message_crc16 = slice b 10 2 := by
  constructor
  · intro b
    rw [DmrData.UdtLastBlock.fixed.fromBytes]
    refine ⟨fun h => by rw [if_neg (by omega)], fun h => ⟨_, if_pos h, ?_⟩⟩
    simp only [DmrData.UdtLastBlock.spec, Nat.mul_zero, Nat.zero_add, List.flatten_cons, List.flatten_nil, List.append_nil]
    rw [flatten_slices b 10 2]
  · intro b x h
    rw [DmrData.UdtLastBlock.fixed.fromBytes] at h
    by_cases hl : 12 ≤ b.length
    · rw [if_pos hl] at h
      cases h
      exact ⟨rfl, rfl⟩
    · rw [if_neg hl] at h; cases h

/-- C26: `Rate12Unconfirmed`, 12 bytes: 12 bytes of user data. -/
theorem C26_Rate12Unconfirmed : Partitions DmrData.Rate12Unconfirmed.read 12 (fun x => [x.user_data]) ∧
    ∀ b : Bytes, ∀ x, fromBytes DmrData.Rate12Unconfirmed.read b = .ok x → x.user_data = slice b 0 12 := by
  constructor
  · intro b
    rw [DmrData.Rate12Unconfirmed.fixed.fromBytes]
    refine ⟨fun h => by rw [if_neg (by omega)], fun h => ⟨_, if_pos h, ?_⟩⟩
    simp only [DmrData.Rate12Unconfirmed.spec, Nat.mul_zero, Nat.zero_add, List.flatten_cons, List.flatten_nil, List.append_nil]
    rfl
  · intro b x h
    rw [DmrData.Rate12Unconfirmed.fixed.fromBytes] at h
    by_cases hl : 12 ≤ b.length
    · rw [if_pos hl] at h
      cases h
      exact rfl
    · rw [if_neg hl] at h; cases h

/-- C26: `Rate12LastBlockUnconfirmed`, 12 bytes: 8 bytes of user data, 4 bytes of message CRC. -/
theorem C26_Rate12LastBlockUnconfirmed : Partitions DmrData.Rate12LastBlockUnconfirmed.read 12 (fun x => [x.user_data, x.message_crc32]) ∧
    ∀ b : Bytes, ∀ x, fromBytes DmrData.Rate12LastBlockUnconfirmed.read b = .ok x → x.user_data = slice b 0 8 ∧ x.message_crc32 = slice b 8 4 := by
  constructor
  · intro b
    rw [DmrData.Rate12LastBlockUnconfirmed.fixed.fromBytes]
    refine ⟨fun h => by rw [if_neg (by omega)], fun h => ⟨_, if_pos h, ?_⟩⟩
    simp only [DmrData.Rate12LastBlockUnconfirmed.spec, Nat.mul_zero, Nat.zero_add, List.flatten_cons, List.flatten_nil, List.append_nil]
    rw [flatten_slices b 8 4]
  · intro b x h
    rw [DmrData.Rate12LastBlockUnconfirmed.fixed.fromBytes] at h
    by_cases hl : 12 ≤ b.length
    · rw [if_pos hl] at h
      cases h
      exact ⟨rfl, rfl⟩
    · rw [if_neg hl] at h; cases h

/-- C26: `Rate12Confirmed`, 12 bytes: 7 bits of serial number, 9 bits of CRC, 10 bytes of user data. -/
theorem C26_Rate12Confirmed : Partitions DmrData.Rate12Confirmed.read 12 (fun x => [serialCrc x.data_block_serial_number x.crc9, x.user_data]) ∧
    ∀ b : Bytes, ∀ x, fromBytes DmrData.Rate12Confirmed.read b = .ok x → x.user_data = slice b 2 10 ∧
      x.data_block_serial_number = u8 b 0 / 2 ∧ x.crc9 = u8 b 0 % 2 * 256 + u8 b 1 := by
  constructor
  · intro b
    rw [DmrData.Rate12Confirmed.fixed.fromBytes]
    refine ⟨fun h => by rw [if_neg (by omega)], fun h => ⟨_, if_pos h, ?_⟩⟩
    simp only [DmrData.Rate12Confirmed.spec, Nat.mul_zero, Nat.zero_add, List.flatten_cons, List.flatten_nil, List.append_nil]
    rw [(bits_pair b (by omega)).1]
    rw [flatten_slices b 2 10]
  · intro b x h
    rw [DmrData.Rate12Confirmed.fixed.fromBytes] at h
    by_cases hl : 12 ≤ b.length
    · rw [if_pos hl] at h
      cases h
      have hp := bits_pair b (by omega)
      exact ⟨rfl, hp.2.1, hp.2.2⟩
    · rw [if_neg hl] at h; cases h

/-- C26: `Rate12LastBlockConfirmed`, 12 bytes: 7 bits of serial number, 9 bits of CRC, 6 bytes of user data, 4 bytes of message CRC. -/
theorem C26_Rate12LastBlockConfirmed : Partitions DmrData.Rate12LastBlockConfirmed.read 12 (fun x => [serialCrc x.data_block_serial_number x.crc9, x.user_data, x.message_crc32]) ∧
    ∀ b : Bytes, ∀ x, fromBytes DmrData.Rate12LastBlockConfirmed.read b = .ok x → x.user_data = slice b 2 6 ∧
      x.data_block_serial_number = u8 b 0 / 2 ∧ x.crc9 = u8 b 0 % 2 * 256 + u8 b 1 ∧ x.message_crc32 = slice b 8 4 := by
  constructor
  · intro b
    rw [DmrData.Rate12LastBlockConfirmed.fixed.fromBytes]
    refine ⟨fun h => by rw [if_neg (by omega)], fun h => ⟨_, if_pos h, ?_⟩⟩
    simp only [DmrData.Rate12LastBlockConfirmed.spec, Nat.mul_zero, Nat.zero_add, List.flatten_cons, List.flatten_nil, List.append_nil]
    rw [(bits_pair b (by omega)).1]
    rw [← List.append_assoc, flatten_slices b 2 6, take_append_slice]
  · intro b x h
    rw [DmrData.Rate12LastBlockConfirmed.fixed.fromBytes] at h
    by_cases hl : 12 ≤ b.length
    · rw [if_pos hl] at h
      cases h
      have hp := bits_pair b (by omega)
      exact ⟨rfl, hp.2.1, hp.2.2, rfl⟩
    · rw [if_neg hl] at h; cases h

/-- C26: `Rate34Unconfirmed`, 18 bytes: 18 bytes of user data. -/
theorem C26_Rate34Unconfirmed : Partitions DmrData.Rate34Unconfirmed.read 18 (fun x => [x.user_data]) ∧
    ∀ b : Bytes, ∀ x, fromBytes DmrData.Rate34Unconfirmed.read b = .ok x → x.user_data = slice b 0 18 := by
  constructor
  · intro b
    rw [DmrData.Rate34Unconfirmed.fixed.fromBytes]
    refine ⟨fun h => by rw [if_neg (by omega)], fun h => ⟨_, if_pos h, ?_⟩⟩
    simp only [DmrData.Rate34Unconfirmed.spec, Nat.mul_zero, Nat.zero_add, List.flatten_cons, List.flatten_nil, List.append_nil]
    rfl
  · intro b x h
    rw [DmrData.Rate34Unconfirmed.fixed.fromBytes] at h
    by_cases hl : 18 ≤ b.length
    · rw [if_pos hl] at h
      cases h
      exact rfl
    · rw [if_neg hl] at h; cases h

/-- C26: `Rate34LastBlockUnconfirmed`, 18 bytes: 14 bytes of user data, 4 bytes of message CRC. -/
theorem C26_Rate34LastBlockUnconfirmed : Partitions DmrData.Rate34LastBlockUnconfirmed.read 18 (fun x => [x.user_data, x.message_crc32]) ∧
    ∀ b : Bytes, ∀ x, fromBytes DmrData.Rate34LastBlockUnconfirmed.read b = .ok x → x.user_data = slice b 0 14 ∧ x.message_crc32 = slice b 14 4 := by
  constructor
  · intro b
    rw [DmrData.Rate34LastBlockUnconfirmed.fixed.fromBytes]
    refine ⟨fun h => by rw [if_neg (by omega)], fun h => ⟨_, if_pos h, ?_⟩⟩
    simp only [DmrData.Rate34LastBlockUnconfirmed.spec, Nat.mul_zero, Nat.zero_add, List.flatten_cons, List.flatten_nil, List.append_nil]
    rw [flatten_slices b 14 4]
  · intro b x h
    rw [DmrData.Rate34LastBlockUnconfirmed.fixed.fromBytes] at h
    by_cases hl : 18 ≤ b.length
    · rw [if_pos hl] at h
      cases h
      exact ⟨rfl, rfl⟩
    · rw [if_neg hl] at h; cases h

/-- C26: `Rate34Confirmed`, 18 bytes: 7 bits of serial number, 9 bits of CRC, 16 bytes of user data. -/
theorem C26_Rate34Confirmed : Partitions DmrData.Rate34Confirmed.read 18 (fun x => [serialCrc x.data_block_serial_number x.crc9, x.user_data]) ∧
    ∀ b : Bytes, ∀ x, fromBytes DmrData.Rate34Confirmed.read b = .ok x → x.user_data = slice b 2 16 ∧
      x.data_block_serial_number = u8 b 0 / 2 ∧ x.crc9 = u8 b 0 % 2 * 256 + u8 b 1 := by
  constructor
  · intro b
    rw [DmrData.Rate34Confirmed.fixed.fromBytes]
    refine ⟨fun h => by rw [if_neg (by omega)], fun h => ⟨_, if_pos h, ?_⟩⟩
    simp only [DmrData.Rate34Confirmed.spec, Nat.mul_zero, Nat.zero_add, List.flatten_cons, List.flatten_nil, List.append_nil]
    rw [(bits_pair b (by omega)).1]
    rw [flatten_slices b 2 16]
  · intro b x h
    rw [DmrData.Rate34Confirmed.fixed.fromBytes] at h
    by_cases hl : 18 ≤ b.length
    · rw [if_pos hl] at h
      cases h
      have hp := bits_pair b (by omega)
      exact ⟨rfl, hp.2.1, hp.2.2⟩
    · rw [if_neg hl] at h; cases h

/-- C26: `Rate34LastBlockConfirmed`, 18 bytes: 7 bits of serial number, 9 bits of CRC, 12 bytes of user data, 4 bytes of message CRC. -/
theorem C26_Rate34LastBlockConfirmed : Partitions DmrData.Rate34LastBlockConfirmed.read 18 (fun x => [serialCrc x.data_block_serial_number x.crc9, x.user_data, x.message_crc32]) ∧
    ∀ b : Bytes, ∀ x, fromBytes DmrData.Rate34LastBlockConfirmed.read b = .ok x → x.user_data = slice b 2 12 ∧
      x.data_block_serial_number = u8 b 0 / 2 ∧ x.crc9 = u8 b 0 % 2 * 256 + u8 b 1 ∧ x.message_crc32 = slice b 14 4 := by
  constructor
  · intro b
    rw [DmrData.Rate34LastBlockConfirmed.fixed.fromBytes]
    refine ⟨fun h => by rw [if_neg (by omega)], fun h => ⟨_, if_pos h, ?_⟩⟩
    simp only [DmrData.Rate34LastBlockConfirmed.spec, Nat.mul_zero, Nat.zero_add, List.flatten_cons, List.flatten_nil, List.append_nil]
    rw [(bits_pair b (by omega)).1]
    rw [← List.append_assoc, flatten_slices b 2 12, take_append_slice]
  · intro b x h
    rw [DmrData.Rate34LastBlockConfirmed.fixed.fromBytes] at h
    by_cases hl : 18 ≤ b.length
    · rw [if_pos hl] at h
      cases h
      have hp := bits_pair b (by omega)
      exact ⟨rfl, hp.2.1, hp.2.2, rfl⟩
    · rw [if_neg hl] at h; cases h

/-- C26: `Rate1Unconfirmed`, 24 bytes: 24 bytes of user data. -/
theorem C26_Rate1Unconfirmed : Partitions DmrData.Rate1Unconfirmed.read 24 (fun x => [x.user_data]) ∧
    ∀ b : Bytes, ∀ x, fromBytes DmrData.Rate1Unconfirmed.read b = .ok x → x.user_data = slice b 0 24 := by
  constructor
  · intro b
    rw [DmrData.Rate1Unconfirmed.fixed.fromBytes]
    refine ⟨fun h => by rw [if_neg (by omega)], fun h => ⟨_, if_pos h, ?_⟩⟩
    simp only [DmrData.Rate1Unconfirmed.spec, Nat.mul_zero, Nat.zero_add, List.flatten_cons, List.flatten_nil, List.append_nil]
    rfl
  · intro b x h
    rw [DmrData.Rate1Unconfirmed.fixed.fromBytes] at h
    by_cases hl : 24 ≤ b.length
    · rw [if_pos hl] at h
      cases h
      exact rfl
    · rw [if_neg hl] at h; cases h

/-- C26: `Rate1LastBlockUnconfirmed`, 24 bytes: 20 bytes of user data, 4 bytes of message CRC. -/
theorem C26_Rate1LastBlockUnconfirmed : Partitions DmrData.Rate1LastBlockUnconfirmed.read 24 (fun x => [x.user_data, x.message_crc32]) ∧
    ∀ b : Bytes, ∀ x, fromBytes DmrData.Rate1LastBlockUnconfirmed.read b = .ok x → x.user_data = slice b 0 20 ∧ x.message_crc32 = slice b 20 4 := by
  constructor
  · intro b
    rw [DmrData.Rate1LastBlockUnconfirmed.fixed.fromBytes]
    refine ⟨fun h => by rw [if_neg (by omega)], fun h => ⟨_, if_pos h, ?_⟩⟩
    simp only [DmrData.Rate1LastBlockUnconfirmed.spec, Nat.mul_zero, Nat.zero_add, List.flatten_cons, List.flatten_nil, List.append_nil]
    rw [flatten_slices b 20 4]
  · intro b x h
    rw [DmrData.Rate1LastBlockUnconfirmed.fixed.fromBytes] at h
    by_cases hl : 24 ≤ b.length
    · rw [if_pos hl] at h
      cases h
      exact ⟨rfl, rfl⟩
    · rw [if_neg hl] at h; cases h

/-- C26: `Rate1Confirmed`, 24 bytes: 7 bits of serial number, 9 bits of CRC, 22 bytes of user data. -/
theorem C26_Rate1Confirmed : Partitions DmrData.Rate1Confirmed.read 24 (fun x => [serialCrc x.data_block_serial_number x.crc9, x.user_data]) ∧
    ∀ b : Bytes, ∀ x, fromBytes DmrData.Rate1Confirmed.read b = .ok x → x.user_data = slice b 2 22 ∧
      x.data_block_serial_number = u8 b 0 / 2 ∧ x.crc9 = u8 b 0 % 2 * 256 + u8 b 1 := by
  constructor
  · intro b
    rw [DmrData.Rate1Confirmed.fixed.fromBytes]
    refine ⟨fun h => by rw [if_neg (by omega)], fun h => ⟨_, if_pos h, ?_⟩⟩
    simp only [DmrData.Rate1Confirmed.spec, Nat.mul_zero, Nat.zero_add, List.flatten_cons, List.flatten_nil, List.append_nil]
    rw [(bits_pair b (by omega)).1]
    rw [flatten_slices b 2 22]
  · intro b x h
    rw [DmrData.Rate1Confirmed.fixed.fromBytes] at h
    by_cases hl : 24 ≤ b.length
    · rw [if_pos hl] at h
      cases h
      have hp := bits_pair b (by omega)
      exact ⟨rfl, hp.2.1, hp.2.2⟩
    · rw [if_neg hl] at h; cases h

/-- C26: `Rate1LastBlockConfirmed`, 24 bytes: 7 bits of serial number, 9 bits of CRC, 18 bytes of user data, 4 bytes of message CRC. -/
theorem C26_Rate1LastBlockConfirmed : Partitions DmrData.Rate1LastBlockConfirmed.read 24 (fun x => [serialCrc x.data_block_serial_number x.crc9, x.user_data, x.message_crc32]) ∧
    ∀ b : Bytes, ∀ x, fromBytes DmrData.Rate1LastBlockConfirmed.read b = .ok x → x.user_data = slice b 2 18 ∧
      x.data_block_serial_number = u8 b 0 / 2 ∧ x.crc9 = u8 b 0 % 2 * 256 + u8 b 1 ∧ x.message_crc32 = slice b 20 4 := by
  constructor
  · intro b
    rw [DmrData.Rate1LastBlockConfirmed.fixed.fromBytes]
    refine ⟨fun h => by rw [if_neg (by omega)], fun h => ⟨_, if_pos h, ?_⟩⟩
    simp only [DmrData.Rate1LastBlockConfirmed.spec, Nat.mul_zero, Nat.zero_add, List.flatten_cons, List.flatten_nil, List.append_nil]
    rw [(bits_pair b (by omega)).1]
    rw [← List.append_assoc, flatten_slices b 2 18, take_append_slice]
  · intro b x h
    rw [DmrData.Rate1LastBlockConfirmed.fixed.fromBytes] at h
    by_cases hl : 24 ≤ b.length
    · rw [if_pos hl] at h
      cases h
      have hp := bits_pair b (by omega)
      exact ⟨rfl, hp.2.1, hp.2.2, rfl⟩
    · rw [if_neg hl] at h; cases h

/-- A confirmed rate 1/2 block with serial number 5 and CRC-9 0x1AB. -/
example : (fromBytes DmrData.Rate12Confirmed.read [0x0B, 0xAB, 1, 2, 3, 4, 5, 6, 7, 8, 9, 10]).map
    (fun x => (x.data_block_serial_number, x.crc9, x.user_data)) = .ok (5, 0x1AB, [1, 2, 3, 4, 5, 6, 7, 8, 9, 10]) := by
  decide

/-! ### C27 -/

/-- C27: the compressed header: 5 bytes, a 2 byte source port iff the source port id (7 bits of byte 3) is 0, a 2 byte
destination port iff the destination port id (7 bits of byte 4) is 0, and all the rest as user data. -/
theorem C27_layout (b : Bytes) :
    fromBytes DmrIpUdp.UdpIpv4CompressedHeader.read b =
      let s := if u8 b 3 % 128 = 0 then 2 else 0
      let d := if u8 b 4 % 128 = 0 then 2 else 0
      if b.length < 5 ∨ b.length < 5 + s + d then .error .eof
      else .ok { ipv4_identification := slice b 0 2
                 source_ip_address_id := resolveEnum _ (u8 b 2 / 16)
                 destination_ip_address_id := resolveEnum _ (u8 b 2 % 16)
                 header_compression_opcode_msb := u8 b 3 / 128 == 1
                 udp_source_port_id := resolveEnum _ (u8 b 3 % 128)
                 header_compression_opcode_lsb := u8 b 4 / 128 == 1
                 udp_destination_port_id := resolveEnum _ (u8 b 4 % 128)
                 udp_source_port := if u8 b 3 % 128 = 0 then some (slice b 5 2) else none
                 udp_destination_port := if u8 b 4 % 128 = 0 then some (slice b (5 + s) 2) else none
                 user_data := b.drop (5 + s + d) } := by
  rw [DmrIpUdp.UdpIpv4CompressedHeader.parses.fromBytes, DmrIpUdp.UdpIpv4CompressedHeader.spec]
  simp only [Nat.zero_add, Nat.mul_zero, upTo]
  by_cases h5 : b.length < 5
  · rw [if_pos (Or.inl h5), if_neg (by omega : ¬ 5 ≤ b.length)]; rfl
  have h5' : 5 ≤ b.length := by omega
  have hb2 := u8_lt b 2
  have hb3 := u8_lt b 3
  have hb4 := u8_lt b 4
  have e16 : bitsAt b 16 4 = u8 b 2 / 16 := by
    have := bitsAt_byte b 2 0 4 (by omega) (by omega)
    rw [show 16 = 8 * 2 + 0 from rfl, this]; norm_num; omega
  have e20 : bitsAt b 20 4 = u8 b 2 % 16 := by
    have := bitsAt_byte b 2 4 4 (by omega) (by omega)
    rw [show 20 = 8 * 2 + 4 from rfl, this]; norm_num
  have e24 : flagAt b 24 = (u8 b 3 / 128 == 1) := by
    have := flagAt_byte b 3 0 (by omega) (by omega)
    have e : u8 b 3 / 2 ^ (7 - 0) % 2 = u8 b 3 / 128 := by norm_num; omega
    rw [show 24 = 8 * 3 + 0 from rfl, this, e]; rfl
  have e25 : bitsAt b 25 7 = u8 b 3 % 128 := by
    have := bitsAt_byte b 3 1 7 (by omega) (by omega)
    rw [show 25 = 8 * 3 + 1 from rfl, this]; norm_num
  have e32 : flagAt b 32 = (u8 b 4 / 128 == 1) := by
    have := flagAt_byte b 4 0 (by omega) (by omega)
    have e : u8 b 4 / 2 ^ (7 - 0) % 2 = u8 b 4 / 128 := by norm_num; omega
    rw [show 32 = 8 * 4 + 0 from rfl, this, e]; rfl
  have e33 : bitsAt b 33 7 = u8 b 4 % 128 := by
    have := bitsAt_byte b 4 1 7 (by omega) (by omega)
    rw [show 33 = 8 * 4 + 1 from rfl, this]; norm_num
  rw [if_pos h5', e16, e20, e24, e25, e32, e33]
  by_cases hs : u8 b 3 % 128 = 0
  · by_cases hd : u8 b 4 % 128 = 0
    · simp only [hs, hd, optPart, whole, if_true, Nat.reduceAdd]
      by_cases h9 : b.length < 9
      · rw [if_pos (Or.inr h9)]
        by_cases h7 : 7 ≤ b.length
        · simp only [if_pos h7, Parsed.as, next, if_neg (by omega : ¬ 9 ≤ b.length)]; rfl
        · simp only [if_neg h7, Parsed.as, next]; rfl
      · have hn : ¬ (b.length < 5 ∨ b.length < 9) := by omega
        rw [if_neg hn]
        simp only [if_pos (by omega : 7 ≤ b.length), if_pos (by omega : 9 ≤ b.length), Parsed.as, next]; rfl
    · simp only [hs, hd, optPart, whole, if_true, if_false, Nat.reduceAdd]
      by_cases h7 : b.length < 7
      · rw [if_pos (Or.inr h7)]
        simp only [if_neg (by omega : ¬ 7 ≤ b.length), Parsed.as, next]; rfl
      · have hn : ¬ (b.length < 5 ∨ b.length < 7) := by omega
        rw [if_neg hn]
        simp only [if_pos (by omega : 7 ≤ b.length), Parsed.as, next]; rfl
  · by_cases hd : u8 b 4 % 128 = 0
    · simp only [hs, hd, optPart, whole, if_true, if_false, Nat.reduceAdd]
      by_cases h7 : b.length < 7
      · rw [if_pos (Or.inr h7)]
        simp only [if_pos h5', if_neg (by omega : ¬ 7 ≤ b.length), Parsed.as, next]; rfl
      · have hn : ¬ (b.length < 5 ∨ b.length < 7) := by omega
        rw [if_neg hn]
        simp only [if_pos h5', if_pos (by omega : 7 ≤ b.length), Parsed.as, next]; rfl
    · have hn : ¬ (b.length < 5 ∨ b.length < 5) := by omega
      simp only [hs, hd, optPart, if_false, Nat.reduceAdd, if_neg hn, next, if_pos h5']; rfl

/-- C27: the parts of an accepted header partition the input; a port is there iff its id is 0. -/
theorem C27_partition (b : Bytes) (x : DmrIpUdp.UdpIpv4CompressedHeader)
    (h : fromBytes DmrIpUdp.UdpIpv4CompressedHeader.read b = .ok x) :
    b = b.take 5 ++ x.udp_source_port.getD [] ++ x.udp_destination_port.getD [] ++ x.user_data ∧
    (x.udp_source_port.isSome ↔ x.udp_source_port_id = .known .present_in_extended_header) ∧
    (x.udp_destination_port.isSome ↔ x.udp_destination_port_id = .known .present_in_extended_header) := by
  rw [C27_layout] at h
  simp only at h
  by_cases hl : b.length < 5 ∨ b.length < 5 + (if u8 b 3 % 128 = 0 then 2 else 0) + (if u8 b 4 % 128 = 0 then 2 else 0)
  · rw [if_pos hl] at h; cases h
  rw [if_neg hl] at h
  cases h
  refine ⟨?_, ?_, ?_⟩
  · by_cases hs : u8 b 3 % 128 = 0
    · by_cases hd : u8 b 4 % 128 = 0
      · simp only [hs, hd, if_true, Option.getD_some, take_append_slice, List.take_append_drop]
      · simp only [hs, hd, if_true, if_false, Option.getD_some, Option.getD_none, List.append_nil, take_append_slice,
          Nat.add_zero, List.take_append_drop]
    · by_cases hd : u8 b 4 % 128 = 0
      · simp only [hs, hd, if_true, if_false, Option.getD_some, Option.getD_none, List.append_nil, take_append_slice,
          Nat.add_zero, List.take_append_drop]
      · simp only [hs, hd, if_false, Option.getD_none, List.append_nil, Nat.add_zero, List.take_append_drop]
  · simp only [resolveEnum_eq_known, PyEnum.value, DmrIpUdp.UdpPortIds.toNat]
    by_cases hs : u8 b 3 % 128 = 0 <;> simp [hs]
  · simp only [resolveEnum_eq_known, PyEnum.value, DmrIpUdp.UdpPortIds.toNat]
    by_cases hd : u8 b 4 % 128 = 0 <;> simp [hd]

/-- Both ports present. -/
example : ∃ x, fromBytes DmrIpUdp.UdpIpv4CompressedHeader.read [1, 2, 3, 0, 0, 0x0F, 0xA1, 0x0F, 0xA2, 7, 8, 9] = .ok x ∧
    x.udp_source_port = some [0x0F, 0xA1] ∧ x.udp_destination_port = some [0x0F, 0xA2] ∧ x.user_data = [7, 8, 9] :=
  ⟨_, rfl, rfl, rfl, rfl⟩
example := C27_partition [1, 2, 3, 0, 0, 0x0F, 0xA1, 0x0F, 0xA2, 7, 8, 9] _ rfl

/-- Source port in the extended header, destination port known. -/
example : (fromBytes DmrIpUdp.UdpIpv4CompressedHeader.read [0, 1, 0x00, 0x00, 0x01, 0x0F, 0xA0, 9, 8]).map
    (fun x => (x.udp_source_port, x.udp_destination_port, x.user_data)) = .ok (some [0x0F, 0xA0], none, [9, 8]) := by
  rw [C27_layout]; rfl

/-! ### C28 -/

/-- The documented full link control body of each supported opcode: `X.spec b 2` is the structure at bit 16. -/
def flcBody (b : Bytes) : FullLinkControl.SpecificDataUnion :=
  let opcode := u8 b 0 % 64
  if opcode = 0 then .groupVoiceChannelUser (FullLinkControl.GroupVoiceChannelUser.spec b 2)
  else if opcode = 3 then .unitToUnitVoiceChannelUser (FullLinkControl.UnitToUnitVoiceChannelUser.spec b 2)
  else if opcode = 4 then .talkerAliasHeader (FullLinkControl.TalkerAliasHeader.spec b 2)
  else if opcode = 8 then .gpsInfoLcPdu (FullLinkControl.GpsInfoLcPdu.spec b 2)
  else .talkerAliasContinuation (FullLinkControl.TalkerAliasContinuation.spec b 2)

theorem flc_bits (b : Bytes) (h : 2 ≤ b.length) :
    flagAt b 0 = (u8 b 0 / 128 == 1) ∧ flagAt b 1 = (u8 b 0 / 64 % 2 == 1) ∧ bitsAt b 2 6 = u8 b 0 % 64 ∧
    bitsAt b 8 8 = u8 b 1 := by
  have hb := u8_lt b 0
  have hb1 := u8_lt b 1
  refine ⟨?_, ?_, ?_, ?_⟩
  · have := flagAt_byte b 0 0 (by omega) (by omega)
    simp only [Nat.mul_zero, Nat.zero_add] at this
    have e : u8 b 0 / 2 ^ (7 - 0) % 2 = u8 b 0 / 128 := by norm_num; omega
    rw [this, e]; rfl
  · have := flagAt_byte b 0 1 (by omega) (by omega)
    simp only [Nat.mul_zero, Nat.zero_add] at this
    rw [this]; rfl
  · have := bitsAt_byte b 0 2 6 (by omega) (by omega)
    simp only [Nat.mul_zero, Nat.zero_add] at this
    rw [this]; norm_num
  · have := bitsAt_byte b 1 0 8 (by omega) (by omega)
    simp only [Nat.mul_one, Nat.add_zero] at this
    rw [this]; norm_num; omega

theorem top5 (b : Bytes) (o : Nat) (h : o < b.length) : bitsAt b (8 * o) 5 = u8 b o / 8 := by
  have hb := u8_lt b o
  have := bitsAt_byte b o 0 5 h (by omega)
  simp only [Nat.add_zero] at this
  rw [this]; norm_num; omega

/-- C28: a full link control of a supported opcode. -/
theorem C28_supported (b : Bytes) (hop : u8 b 0 % 64 ∈ [0, 3, 4, 5, 6, 7, 8]) :
    fromBytes FullLinkControl.read b =
      if b.length ≤ 9 then .error .eof
      else .ok { protect_flag := u8 b 0 / 128 == 1
                 reserved := u8 b 0 / 64 % 2 == 1
                 full_link_control_opcode := resolveEnum _ (u8 b 0 % 64)
                 feature_set_id := resolveEnum _ (u8 b 1)
                 specific_data := some (flcBody b)
                 crc_checksum := if 12 ≤ b.length then some (slice b 9 3) else none
                 cs5_checksum := if b.length = 10 then some (u8 b 9 / 8) else none } := by
  rw [FullLinkControl.fromBytes_eq, FullLinkControl.spec, upTo]
  by_cases h2 : b.length < 2
  · rw [if_neg (by omega : ¬ 2 ≤ b.length), if_pos (by omega : b.length ≤ 9)]
  have h2' : 2 ≤ b.length := by omega
  obtain ⟨e0, e1, e2, e8⟩ := flc_bits b h2'
  rw [if_pos h2', e0, e1, e2, e8]
  unfold FullLinkControl.bodySpec flcBody
  generalize u8 b 0 % 64 = op at hop
  simp only [List.mem_cons, List.not_mem_nil, or_false] at hop
  by_cases h9 : b.length < 9
  · rw [if_pos (by omega : b.length ≤ 9)]
    have h9' : ¬ 2 + 7 ≤ b.length := by omega
    rcases hop with rfl | rfl | rfl | rfl | rfl | rfl | rfl <;>
      simp only [Nat.reduceEqDiff, if_true, if_false, whole, if_neg h9', Parsed.as, next]
  have h9' : 2 + 7 ≤ b.length := by omega
  by_cases h10 : b.length ≤ 9
  · rw [if_pos h10]
    have c1 : ¬ 2 + 7 + 3 ≤ b.length := by omega
    have c2 : b.length ≤ 10 := by omega
    have c3 : ¬ 2 + 7 + 1 ≤ b.length := by omega
    rcases hop with rfl | rfl | rfl | rfl | rfl | rfl | rfl <;>
      simp only [Nat.reduceEqDiff, if_true, if_false, whole, if_pos h9', Parsed.as, next, if_neg c1, if_pos c2, upTo,
        if_neg c3]
  rw [if_neg h10]
  by_cases hten : b.length = 10
  · have c1 : ¬ 2 + 7 + 3 ≤ b.length := by omega
    have c2 : b.length ≤ 10 := by omega
    have c3 : 2 + 7 + 1 ≤ b.length := by omega
    have c4 : ¬ 12 ≤ b.length := by omega
    have c5 : bitsAt b (8 * (2 + 7)) 5 = u8 b 9 / 8 := top5 b 9 (by omega)
    rcases hop with rfl | rfl | rfl | rfl | rfl | rfl | rfl <;>
      simp only [Nat.reduceEqDiff, if_true, if_false, whole, if_pos h9', Parsed.as, next, if_neg c1, if_pos c2, upTo,
        if_pos c3, if_neg c4, if_pos hten, c5]
  · have c2 : ¬ b.length ≤ 10 := by omega
    by_cases h12 : 12 ≤ b.length
    · have c1 : 2 + 7 + 3 ≤ b.length := by omega
      rcases hop with rfl | rfl | rfl | rfl | rfl | rfl | rfl <;>
        simp only [Nat.reduceEqDiff, if_true, if_false, whole, if_pos h9', Parsed.as, next, if_pos c1, if_neg c2,
          if_pos h12, if_neg hten]
    · have c1 : ¬ 2 + 7 + 3 ≤ b.length := by omega
      rcases hop with rfl | rfl | rfl | rfl | rfl | rfl | rfl <;>
        simp only [Nat.reduceEqDiff, if_true, if_false, whole, if_pos h9', Parsed.as, next, if_neg c1, if_neg c2,
          if_neg h12, if_neg hten]

/-- C28: a full link control of any other opcode has no body; the checksums follow the two header bytes. -/
theorem C28_unsupported (b : Bytes) (hop : u8 b 0 % 64 ∉ [0, 3, 4, 5, 6, 7, 8]) :
    fromBytes FullLinkControl.read b =
      if b.length ≤ 2 ∨ b.length = 5 then .error .eof
      else .ok { protect_flag := u8 b 0 / 128 == 1
                 reserved := u8 b 0 / 64 % 2 == 1
                 full_link_control_opcode := resolveEnum _ (u8 b 0 % 64)
                 feature_set_id := resolveEnum _ (u8 b 1)
                 specific_data := none
                 crc_checksum := if 5 ≤ b.length then some (slice b 2 3) else none
                 cs5_checksum := if b.length ≤ 4 then some (u8 b 2 / 8)
                                 else if b.length ≤ 10 then some (u8 b 5 / 8) else none } := by
  rw [FullLinkControl.fromBytes_eq, FullLinkControl.spec, upTo]
  by_cases h2 : b.length < 2
  · rw [if_neg (by omega : ¬ 2 ≤ b.length), if_pos (Or.inl (by omega))]
  have h2' : 2 ≤ b.length := by omega
  obtain ⟨e0, e1, e2, e8⟩ := flc_bits b h2'
  rw [if_pos h2', e0, e1, e2, e8]
  unfold FullLinkControl.bodySpec
  generalize u8 b 0 % 64 = op at hop
  simp only [List.mem_cons, List.not_mem_nil, or_false, not_or] at hop
  simp only [hop, if_false, next, if_pos h2', Nat.reduceAdd, Nat.reduceMul, upTo]
  by_cases h5 : 5 ≤ b.length
  · rw [if_pos h5, if_pos h5]
    have n4 : ¬ b.length ≤ 4 := by omega
    by_cases h10 : b.length ≤ 10
    · rw [if_pos h10, if_neg n4, if_pos h10]
      by_cases h6 : 6 ≤ b.length
      · have hn : ¬ (b.length ≤ 2 ∨ b.length = 5) := by omega
        have c5 : bitsAt b 40 5 = u8 b 5 / 8 := top5 b 5 (by omega)
        rw [if_pos h6, if_neg hn, c5]
      · rw [if_neg h6, if_pos (Or.inr (by omega))]
    · have hn : ¬ (b.length ≤ 2 ∨ b.length = 5) := by omega
      rw [if_neg h10, if_neg hn, if_neg n4, if_neg h10]
  · rw [if_neg h5, if_neg h5, if_pos (by omega : b.length ≤ 10)]
    by_cases h3 : 3 ≤ b.length
    · have hn : ¬ (b.length ≤ 2 ∨ b.length = 5) := by omega
      have c5 : bitsAt b 16 5 = u8 b 2 / 8 := top5 b 2 (by omega)
      rw [if_pos h3, if_neg hn, if_pos (by omega : b.length ≤ 4), c5]
    · rw [if_neg h3, if_pos (Or.inl (by omega))]

example := C28_unsupported [0xB0, 1, 2, 3, 4, 5, 6, 7, 8, 9, 10, 11] (by decide)

/-- A group voice link control of 12 and of 10 bytes. -/
example : (fromBytes FullLinkControl.read [0x00, 0x00, 0x20, 0, 0, 9, 0, 0, 7, 0xAA, 0xBB, 0xCC]).map
    (fun x => (x.specific_data, x.crc_checksum, x.cs5_checksum)) =
    .ok (some (.groupVoiceChannelUser ⟨0x20, 9, 7⟩), some [0xAA, 0xBB, 0xCC], none) := by
  rw [C28_supported _ (by decide)]; rfl
example : (fromBytes FullLinkControl.read [0x00, 0x00, 0x20, 0, 0, 9, 0, 0, 7, 0xA8]).map
    (fun x => (x.crc_checksum, x.cs5_checksum)) = .ok (none, some 0x15) := by
  rw [C28_supported _ (by decide)]; rfl

end Dmr.Etsi
