import Verif.Layout.HyteraVar
/-
The reliable transport (HSTRP), IP Site Connect and RTP readers against their specifications.
-/

namespace Dmr.Hytera

/-- The option loop. -/
theorem HyteraSimpleTransportReliabilityProtocol.eval_options (buf : Bytes) (q : Nat) (hq : q ≤ buf.length) :
    Rd.eval (repeatUntil (buf.length + 2) HyteraSimpleTransportReliabilityProtocol.Option.read
        (fun x => do return !(x.expect_more_options))) (Stream.at buf (8 * q)) =
      lift buf (chain HyteraSimpleTransportReliabilityProtocol.Option.spec (fun o _ => !o.expect_more_options) buf q) :=
  eval_repeatUntil HyteraSimpleTransportReliabilityProtocol.Option.parses
    HyteraSimpleTransportReliabilityProtocol.Option.advances (fun _ _ _ => rfl) _ q hq (by omega)

theorem HyteraSimpleTransportReliabilityProtocol.options_range (buf : Bytes) (q : Nat) (hq : q ≤ buf.length) :
    InRange buf (chain HyteraSimpleTransportReliabilityProtocol.Option.spec (fun o _ => !o.expect_more_options) buf q) :=
  chain_range (fun q hq => HyteraSimpleTransportReliabilityProtocol.Option.parses.range buf q hq) _ q (Nat.le_refl _) hq

/-- The frame loop. -/
theorem HyteraSimpleTransportReliabilityProtocol.eval_frames (buf : Bytes) (q : Nat) (hq : q ≤ buf.length) :
    Rd.eval (repeatEos (buf.length + 2) HyteraDmrApplicationProtocol.read) (Stream.at buf (8 * q)) =
      lift buf (toEnd HyteraDmrApplicationProtocol.spec buf q) :=
  eval_repeatEos HyteraDmrApplicationProtocol.parses HyteraDmrApplicationProtocol.advances _ q hq (by omega)

theorem HyteraSimpleTransportReliabilityProtocol.parses :
    Parses HyteraSimpleTransportReliabilityProtocol.read HyteraSimpleTransportReliabilityProtocol.spec := by
  refine ⟨?_, ?_⟩ <;> intro buf q hq <;> unfold HyteraSimpleTransportReliabilityProtocol.spec
  · unfold HyteraSimpleTransportReliabilityProtocol.read
    refine eval_fixedAt rfl hq fun _ _ => ?_
    by_cases h6 : q + 6 ≤ buf.length
    · rw [upTo, if_pos h6]
      rw [b_readU1 buf _ (by omega), if_pos (by omega), b_readBitsIntBe buf _ (by omega), if_pos (by omega),
        b_readFlag buf _ (by omega), if_pos (by omega), b_readFlag buf _ (by omega), if_pos (by omega),
        b_readFlag buf _ (by omega), if_pos (by omega), b_readFlag buf _ (by omega), if_pos (by omega),
        b_readFlag buf _ (by omega), if_pos (by omega), b_readFlag buf _ (by omega), if_pos (by omega),
        b_alignToByte, b_readU2be buf _ (by omega), if_pos (by omega), b_isEof buf _ (by omega), b_loopFuel]
      simp only [ceil_byte, Nat.add_assoc, Nat.reduceAdd, Nat.reduceMul, Nat.reduceDiv, Nat.mul_add]
      rw [show 8 * q + 48 = 8 * (q + 6) by omega]
      refine eval_optPart (by simp [and_assoc]) (HyteraSimpleTransportReliabilityProtocol.eval_options buf _ h6)
        (HyteraSimpleTransportReliabilityProtocol.options_range buf _ h6) h6 fun os e1 h1 => ?_
      rw [b_isEof buf _ (by omega), b_loopFuel]
      refine eval_optPart (by simp [and_assoc]) (HyteraSimpleTransportReliabilityProtocol.eval_frames buf _ h1)
        (toEnd_range _ h1) h1 fun fs e2 h2 => ?_
      rw [b_isEof buf _ (by omega), b_optionally, b_readBytesFull buf _ (by omega)]
      rd_simp []
      split_ifs <;> simp_all
    · rw [upTo, if_neg h6]
      rd_simp [if_neg, ite_self]
  · in_range

theorem IpSiteConnectHeartbeat.Keepalive.parses :
    Parses IpSiteConnectHeartbeat.Keepalive.read IpSiteConnectHeartbeat.Keepalive.spec := by
  refine ⟨?_, ?_⟩ <;> intro buf q hq <;> unfold IpSiteConnectHeartbeat.Keepalive.spec
  · exact eval_fixedAt rfl hq fun _ _ => rfl
  · in_range

theorem IpSiteConnectHeartbeat.PingPong.parses :
    Parses IpSiteConnectHeartbeat.PingPong.read IpSiteConnectHeartbeat.PingPong.spec := by
  refine ⟨?_, ?_⟩ <;> intro buf q hq <;> unfold IpSiteConnectHeartbeat.PingPong.spec
  · refine eval_fixedAt rfl hq fun h _ => eval_fixedAt rfl h fun h _ => eval_fixedAt rfl h fun h _ => ?_
    rw [fixedAt]
    rd_layout []
  · in_range

theorem IpSiteConnectHeartbeat.parses : Parses IpSiteConnectHeartbeat.read IpSiteConnectHeartbeat.spec := by
  refine ⟨?_, ?_⟩ <;> intro buf q hq <;> unfold IpSiteConnectHeartbeat.spec
  · unfold IpSiteConnectHeartbeat.read IpSiteConnectHeartbeat.readData IpSiteConnectHeartbeat.Unknown.read
    rw [b_sizeIo, b_ite, b_ite, lift_ite, lift_ite]
    refine ite_both (fun _ => ?_) fun _ => ite_both (fun _ => ?_) fun _ => ?_
    · rw [b_assoc]
      exact ((IpSiteConnectHeartbeat.Keepalive.parses.map fun x => (⟨.keepalive x⟩ : IpSiteConnectHeartbeat)).run buf q hq)
    · rw [b_assoc]
      exact ((IpSiteConnectHeartbeat.PingPong.parses.map fun x => (⟨.pingPong x⟩ : IpSiteConnectHeartbeat)).run buf q hq)
    · rd_simp []
  · refine InRange.ite (fun _ => ?_) fun _ => InRange.ite (fun _ => ?_) fun _ => ?_
    · exact (IpSiteConnectHeartbeat.Keepalive.parses.range buf q hq).as _
    · exact (IpSiteConnectHeartbeat.PingPong.parses.range buf q hq).as _
    · exact InRange.ok (Nat.le_refl _)

theorem IpSiteConnectProtocol.parses : Parses IpSiteConnectProtocol.read IpSiteConnectProtocol.spec := by
  refine ⟨?_, ?_⟩ <;> intro buf q hq <;> unfold IpSiteConnectProtocol.spec
  · unfold IpSiteConnectProtocol.read
    refine eval_skip_fixedAt rfl hq fun h2 _ => ?_
    by_cases h72 : q + 72 ≤ buf.length
    · rw [upTo, if_pos h72]
      by_cases he : q + 72 = buf.length
      · rd_simp [↓if_pos, he]
      · rd_simp [↓if_pos, he]
    · rw [upTo, if_neg h72]
      rd_simp [if_neg, ite_self]
  · in_range

theorem readU4be_fixed : Fixed readU4be 4 u32be := by
  intro buf q hq
  rd_simp []

parse_layout RealTimeTransportProtocol.FixedHeader [(repeatN_fixed readU4be_fixed _).b]

theorem RealTimeTransportProtocol.parses : Parses RealTimeTransportProtocol.read RealTimeTransportProtocol.spec := by
  refine ⟨?_, ?_⟩ <;> intro buf q hq <;> unfold RealTimeTransportProtocol.spec
  · unfold RealTimeTransportProtocol.read RealTimeTransportProtocol.lenPadding RealTimeTransportProtocol.lenPaddingIfExists
    rcases Nat.eq_zero_or_pos buf.length with h0 | h0
    · have hx : RealTimeTransportProtocol.FixedHeader.spec buf q = .error .eof := by
        rw [RealTimeTransportProtocol.FixedHeader.spec, upTo, if_neg (by omega)]
      rw [RealTimeTransportProtocol.FixedHeader.parses.b _ buf _ (by omega) (by omega), div8_mul, hx]; rfl
    refine eval_next RealTimeTransportProtocol.FixedHeader.parses hq fun h e1 he1 => ?_
    refine eval_optPart Iff.rfl (RealTimeTransportProtocol.HeaderExtension.parses.run buf e1 he1)
      (RealTimeTransportProtocol.HeaderExtension.parses.range buf e1 he1) he1 fun x e2 he2 => ?_
    cases hp : h.padding
    · rd_simp [Bool.false_eq_true, RealTimeTransportProtocol.padLen]
      have e1 : ((buf.length : Int) - (e2 : Int) - ((0 : Nat) : Int)).toNat = buf.length - e2 := by omega
      rw [if_neg (by omega), e1, if_pos (by omega), if_neg (by omega), Nat.sub_zero,
        (by omega : e2 + (buf.length - e2) = buf.length)]
    · rd_simp [RealTimeTransportProtocol.padLen, Option.getD_some]
      generalize u8 buf (buf.length - 1) = v
      rw [if_pos (by omega)]
      by_cases hv : buf.length < e2 + v
      · rw [if_pos (by omega), if_pos hv]
      · have e1 : ((buf.length : Int) - (e2 : Int) - (v : Int)).toNat = buf.length - e2 - v := by omega
        rw [if_neg (by omega), if_neg hv, e1, if_pos (by omega),
          (by omega : e2 + (buf.length - e2 - v + v) = buf.length),
          (by omega : e2 + (buf.length - e2 - v) = buf.length - v)]
        congr 5
        rw [slice, List.take_of_length_le]; simp; omega
  · in_range
end Dmr.Hytera
