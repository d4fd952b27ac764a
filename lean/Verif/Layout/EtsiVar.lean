import Verif.Layout.Etsi
import Verif.Advance
import Verif.Spec.EtsiVar
/-
The variable-size ETSI decoders against `Verif/Spec/EtsiVar.lean`.
-/

namespace Dmr.Etsi

theorem DmrCsbk.body_parses (v : Nat) : Parses (DmrCsbk.readCsbkData (resolveEnum _ v)) (DmrCsbk.bodySpec v) := by
  unfold DmrCsbk.readCsbkData DmrCsbk.bodySpec
  refine .caseEnum rfl (DmrCsbk.UnitToUnitVoiceAnswerData.parses.map _) ?_
  refine .caseEnum rfl (DmrCsbk.PreambleData.parses.map _) ?_
  refine .caseEnum rfl (DmrCsbk.ChannelTimingData.parses.map _) ?_
  refine .caseEnum rfl (DmrCsbk.UnitToUnitVoiceRequestData.parses.map _) ?_
  refine .caseEnum rfl (DmrCsbk.BsOutboundActivationData.parses.map _) ?_
  refine .caseEnum rfl (DmrCsbk.NegativeAckResponseData.parses.map _) ?_
  exact .none

parse_layout DmrCsbk [(DmrCsbk.body_parses _).b]

theorem FullLinkControl.body_parses (v : Nat) :
    Parses (FullLinkControl.readSpecificData (resolveEnum _ v)) (FullLinkControl.bodySpec v) := by
  unfold FullLinkControl.readSpecificData FullLinkControl.bodySpec
  refine .caseEnum rfl (FullLinkControl.TalkerAliasHeader.parses.map _) ?_
  refine .caseEnum rfl (FullLinkControl.UnitToUnitVoiceChannelUser.parses.map _) ?_
  refine .caseEnum rfl (FullLinkControl.GroupVoiceChannelUser.parses.map _) ?_
  refine .caseEnum rfl (FullLinkControl.TalkerAliasContinuation.parses.map _) ?_
  refine .caseEnum rfl (FullLinkControl.TalkerAliasContinuation.parses.map _) ?_
  refine .caseEnum rfl (FullLinkControl.TalkerAliasContinuation.parses.map _) ?_
  refine .caseEnum rfl (FullLinkControl.GpsInfoLcPdu.parses.map _) ?_
  exact .none

theorem FullLinkControl.fromBytes_eq (b : Bytes) : fromBytes FullLinkControl.read b = FullLinkControl.spec b := by
  unfold FullLinkControl.read FullLinkControl.spec
  rw [Dmr.fromBytes_eq]
  rcases Nat.lt_or_ge b.length 2 with h | h
  · rw [upTo, if_neg (by omega)]
    have h2 : ¬ 0 + 16 ≤ 8 * b.length := by omega
    rd_simp [if_neg, ite_self]
    rfl
  · rw [upTo, if_pos h]
    rd_simp [↓if_pos, (FullLinkControl.body_parses _).b]
    rcases FullLinkControl.bodySpec (bitsAt b 2 6) b 2 with _ | ⟨d, e⟩
    · rfl
    · simp only [next]
      by_cases he : e ≤ b.length
      · rw [if_pos he, if_pos he]
        have hc : (3 : Int) ≤ (b.length : Int) - (e : Int) ↔ e + 3 ≤ b.length := by omega
        simp only [hc, Nat.mul_add, Nat.reduceMul]
        split_ifs <;> rfl
      · rw [if_neg he, if_neg he]; rfl

theorem DmrIpUdp.UdpIpv4CompressedHeader.parses :
    Parses DmrIpUdp.UdpIpv4CompressedHeader.read DmrIpUdp.UdpIpv4CompressedHeader.spec := by
  refine ⟨?_, ?_⟩ <;> intro buf q hq <;> unfold DmrIpUdp.UdpIpv4CompressedHeader.spec
  · unfold DmrIpUdp.UdpIpv4CompressedHeader.read
    rd_layout [optPart, resolveEnum_eq_known, PyEnum.value, DmrIpUdp.UdpPortIds.toNat]
  · in_range

theorem DmrDataHeader.readDataBody_eq (v : Nat) (raw : Bytes) (h : raw.length = 12) :
    fromBytes (DmrDataHeader.readDataBody (resolveEnum _ v)) raw = .ok (DmrDataHeader.bodySpec v raw) := by
  rw [Dmr.fromBytes_eq]
  unfold DmrDataHeader.readDataBody DmrDataHeader.bodySpec
  rd_simp [resolveEnum_eq_known, PyEnum.value, DmrDataHeader.DataPacketFormats.toNat,
    DmrDataHeader.DataHeaderUndefined.read, ↓if_pos, List.drop_zero]
  split_ifs <;> rfl

theorem DmrCsbk.bodySpec_from (v : Nat) (b : Bytes) (q : Nat) : AtLeast q (DmrCsbk.bodySpec v b q) := by
  unfold bodySpec
  at_least []

end Dmr.Etsi
