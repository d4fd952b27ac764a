import Verif.Props.Unverified
/-
C75, more: the checksums of the frames in an HSTRP packet, and the checksums of full link control with an opcode that is not in use.
-/

set_option autoImplicit false

namespace Dmr.Wire

open Spec Hytera

/-- The octets of a frame around its checksum. -/
theorem AnyFrame.around (g : AnyFrame) : g.bytes = (pack f[g.reliable, g.msg.protocol] ++ g.msg.bytes) ++ pack f[g.checksum] ++ pack f[0x03#8] := by
  rw [AnyFrame.bytes, List.append_assoc _ (pack f[g.checksum]), ← pack_append _ _ (by width_of) (by width_of)]
  rfl

/-- The sequence number of an HSTRP packet is only reported. -/
theorem C75_hstrp_sequence (b : Bytes) (x : HyteraSimpleTransportReliabilityProtocol) (s0 s1 : UInt8)
    (h : fromBytes HyteraSimpleTransportReliabilityProtocol.read b = .ok x) :
    fromBytes HyteraSimpleTransportReliabilityProtocol.read (overwrite b 4 [s0, s1]) =
      .ok { x with sequence_number := 256 * s0.toNat + s1.toNat } := by
  obtain ⟨p, rfl, rfl⟩ := (C53_hstrp b x).1 h
  refine (C53_hstrp _ _).2 ⟨{ p with sequence_number := BitVec.ofNat 16 (256 * s0.toNat + s1.toNat) }, ?_, ?_⟩
  · have hs := s0.toNat_lt
    have ht := s1.toNat_lt
    simp only [Hstrp.bytes, nat16, hstrpPacket]
    have e := overwrite_mid (p := [0x32, 0x42, p.version, p.flags])
      (m := [UInt8.ofNat (p.sequence_number.toNat / 256), UInt8.ofNat (p.sequence_number.toNat % 256)]) (w := [s0, s1])
      (encodeOptions p.options ++ ((p.frames.map AnyFrame.bytes).flatten ++ p.extra)) (off := 4) rfl rfl
    simp only [List.cons_append, List.nil_append] at e ⊢
    rw [e]
    congr 5
    · apply UInt8.toNat_inj.1; simp; omega
    · congr 1; apply UInt8.toNat_inj.1; simp
  · simp only [Hstrp.obj, nat16]

/-- For each frame in an HSTRP packet there is an octet that reports its checksum and does nothing else; for the last one it is the octet
before the last of the packet. -/
theorem C75_hstrp (b : Bytes) (x : HyteraSimpleTransportReliabilityProtocol) (l : List HyteraDmrApplicationProtocol)
    (h : fromBytes HyteraSimpleTransportReliabilityProtocol.read b = .ok x) (hd : x.data = some l) (i : Nat) (hi : i < l.length) :
    ∃ off, off < b.length ∧ (i + 1 = l.length → off + 2 = b.length) ∧ u8 b off = l[i].checksum ∧ ∀ c : UInt8,
      fromBytes HyteraSimpleTransportReliabilityProtocol.read (overwrite b off [c]) =
        .ok { x with data := some (l.set i { l[i] with checksum := c.toNat }) } := by
  obtain ⟨p, rfl, rfl⟩ := (C53_hstrp b x).1 h
  obtain ⟨version, flags, seq, options, frames, extra, good, hoptions, hnone, hframes, hextra⟩ := p
  have hne : frames ≠ [] := by
    intro e
    simp [Hstrp.obj, e] at hd
  simp only [Hstrp.obj, if_neg hne, Option.some.injEq] at hd
  subst hd
  rw [List.length_map] at hi
  obtain ⟨pre, f, post, rfl, rfl⟩ : ∃ pre f post, frames = pre ++ f :: post ∧ pre.length = i :=
    ⟨frames.take i, frames[i], frames.drop (i + 1), by rw [List.cons_getElem_drop_succ, List.take_append_drop], by rw [List.length_take]; omega⟩
  have hx : extra = [] := Classical.byContradiction fun e => hframes hne (hextra e)
  subst hx
  let lead : Bytes := [0x32, 0x42, version, flags, UInt8.ofNat (seq.toNat / 256), UInt8.ofNat (seq.toNat % 256)] ++ encodeOptions options ++
    (pre.map AnyFrame.bytes).flatten ++ (pack f[f.reliable, f.msg.protocol] ++ f.msg.bytes)
  let change (c : BitVec 8) : AnyFrame := { f with checksum := c }
  have hg : (List.map (AnyFrame.obj 0x3242) (pre ++ f :: post))[pre.length]'(by simp) = AnyFrame.obj 0x3242 f := by simp
  have hb : ∀ c hn hf he, (Hstrp.mk version flags seq options (pre ++ change c :: post) [] good hoptions hn hf he).bytes =
      lead ++ pack f[c] ++ (pack f[0x03#8] ++ (post.map AnyFrame.bytes).flatten) := by
    intro c hn hf he
    simp only [Hstrp.bytes, hstrpPacket, List.map_append, List.map_cons, List.flatten_append, List.flatten_cons, List.append_nil,
      (change c).around, lead, List.append_assoc]
    rfl
  have hb0 : (Hstrp.mk version flags seq options (pre ++ f :: post) [] good hoptions hnone hframes hextra).bytes = _ :=
    hb f.checksum hnone hframes hextra
  rw [pack_octet_value, pack_octet_value] at hb0
  refine ⟨lead.length, ?_, ?_, ?_, fun c => ?_⟩
  · rw [hb0]
    simp only [List.length_append, List.length_cons, List.length_nil]
    omega
  · intro hlast
    have : post = [] := by
      rw [List.length_map, List.length_append, List.length_cons] at hlast
      exact List.eq_nil_of_length_eq_zero (by omega)
    rw [hb0, this]
    simp
  · rw [hb0, hg]
    simp [u8, AnyFrame.obj]
  · rw [hb0, overwrite_mid _ rfl (by rfl)]
    refine (C53_hstrp _ _).2 ⟨⟨version, flags, seq, options, pre ++ change (BitVec.ofNat 8 c.toNat) :: post, [], good, hoptions, ?_, ?_, hextra⟩, ?_, ?_⟩
    · intro e
      have := hnone e
      simpa using this
    · intro _
      exact hframes hne
    · rw [hb, byte8, pack_octet_value]
    · rw [hg]
      simp [Hstrp.obj, AnyFrame.obj, change]

/-- A heartbeat with a frame in it. -/
def twoFrames : Bytes := [0x32, 0x42, 0, 0, 0, 7, 0x11, 0, 0x03, 0, 4, 10, 0, 0, 1, 0xaa, 3, 0x11, 0, 0x03, 0, 4, 10, 0, 0, 2, 0xbb, 3]

example : ∃ x l, fromBytes HyteraSimpleTransportReliabilityProtocol.read exampleHstrp.bytes = .ok x ∧ x.data = some l ∧
    l.map (·.checksum) = [0x55, 0x66] :=
  ⟨_, _, (C53_hstrp _ _).mpr ⟨exampleHstrp, rfl, rfl⟩, rfl, rfl⟩

/-! ### Full link control with an opcode that is not in use -/

/-- Such a message with three octets of CRC: these octets are reported. -/
theorem C75_flc_unknown (b : Bytes) (x : Etsi.FullLinkControl) (c0 c1 c2 : UInt8) (h : fromBytes Etsi.FullLinkControl.read b = .ok x)
    (hop : u8 b 0 % 64 ∉ [0, 3, 4, 5, 6, 7, 8]) (hl : 6 ≤ b.length) :
    x.crc_checksum = some (slice b 2 3) ∧
      fromBytes Etsi.FullLinkControl.read (overwrite b 2 [c0, c1, c2]) = .ok { x with crc_checksum := some [c0, c1, c2] } := by
  have hw : 2 + [c0, c1, c2].length ≤ b.length := by simp only [List.length_cons, List.length_nil]; omega
  have n2 : ¬ (b.length ≤ 2 ∨ b.length = 5) := by omega
  have p5 : 5 ≤ b.length := by omega
  have n4 : ¬ b.length ≤ 4 := by omega
  rw [Etsi.C28_unsupported b hop, if_neg n2, if_pos p5, if_neg n4, Except.ok.injEq] at h
  subst h
  refine ⟨rfl, ?_⟩
  have hs : slice (overwrite b 2 [c0, c1, c2]) 2 3 = [c0, c1, c2] := slice_overwritten hw
  rw [Etsi.C28_unsupported _ (by rw [u8_overwrite hw (by omega)]; exact hop), length_overwrite hw, if_neg n2, hs,
    u8_overwrite hw (.inl (by omega)), u8_overwrite hw (.inl (by omega)),
    u8_overwrite (i := 5) hw (.inr (Nat.le_refl 5)), if_pos p5, if_neg n4]

theorem u8_written {b : Bytes} {off : Nat} {c : UInt8} (h : off + [c].length ≤ b.length) : u8 (overwrite b off [c]) off = c.toNat := by
  simp [u8, getElem_overwrite h]

/-- With six to ten octets the last five bits are reported, too. -/
theorem C75_flc_unknown_both (b : Bytes) (x : Etsi.FullLinkControl) (c : UInt8) (h : fromBytes Etsi.FullLinkControl.read b = .ok x)
    (hop : u8 b 0 % 64 ∉ [0, 3, 4, 5, 6, 7, 8]) (hl : 6 ≤ b.length) (hu : b.length ≤ 10) :
    x.cs5_checksum = some (u8 b 5 / 8) ∧
      fromBytes Etsi.FullLinkControl.read (overwrite b 5 [c]) = .ok { x with cs5_checksum := some (c.toNat / 8) } := by
  have hw : 5 + [c].length ≤ b.length := by simp only [List.length_cons, List.length_nil]; omega
  have n2 : ¬ (b.length ≤ 2 ∨ b.length = 5) := by omega
  have p5 : 5 ≤ b.length := by omega
  have n4 : ¬ b.length ≤ 4 := by omega
  rw [Etsi.C28_unsupported b hop, if_neg n2, if_pos p5, if_neg n4, if_pos hu, Except.ok.injEq] at h
  subst h
  refine ⟨rfl, ?_⟩
  rw [Etsi.C28_unsupported _ (by rw [u8_overwrite hw (by omega)]; exact hop), length_overwrite hw, if_neg n2, u8_written hw,
    u8_overwrite hw (.inl (by omega)), u8_overwrite hw (.inl (by omega)), slice_overwrite hw (.inl (by omega)),
    if_pos p5, if_neg n4, if_pos hu]

/-- With three or four octets only these five bits are reported. -/
theorem C75_flc_unknown_embedded (b : Bytes) (x : Etsi.FullLinkControl) (c : UInt8) (h : fromBytes Etsi.FullLinkControl.read b = .ok x)
    (hop : u8 b 0 % 64 ∉ [0, 3, 4, 5, 6, 7, 8]) (hu : b.length ≤ 5) :
    x.crc_checksum = none ∧ x.cs5_checksum = some (u8 b 2 / 8) ∧
      fromBytes Etsi.FullLinkControl.read (overwrite b 2 [c]) = .ok { x with cs5_checksum := some (c.toNat / 8) } := by
  rw [Etsi.C28_unsupported b hop] at h
  split at h
  · cases h
  next hn =>
  have hw : 2 + [c].length ≤ b.length := by simp only [List.length_cons, List.length_nil]; omega
  have n5 : ¬ 5 ≤ b.length := by omega
  have p4 : b.length ≤ 4 := by omega
  rw [if_neg n5, if_pos p4, Except.ok.injEq] at h
  subst h
  refine ⟨rfl, rfl, ?_⟩
  rw [Etsi.C28_unsupported _ (by rw [u8_overwrite hw (by omega)]; exact hop), length_overwrite hw, if_neg hn, u8_written hw,
    u8_overwrite hw (.inl (by omega)), u8_overwrite hw (.inl (by omega)), if_neg n5, if_pos p4]

example : ∃ x, fromBytes Etsi.FullLinkControl.read [0x3f, 0, 1, 2, 3, 0x88, 5] = .ok x ∧ x.crc_checksum = some [1, 2, 3] ∧ x.cs5_checksum = some 17 :=
  ⟨_, by rfl, by rfl, by rfl⟩

example : ∃ x, fromBytes Etsi.FullLinkControl.read [0x3f, 0, 0x88] = .ok x ∧ x.crc_checksum = none ∧ x.cs5_checksum = some 17 :=
  ⟨_, by rfl, by rfl, by rfl⟩

end Dmr.Wire
