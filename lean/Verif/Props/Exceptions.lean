import Verif.ErrorsAll
import Verif.LocalList
import Verif.Props.HyteraFrames
/-
Property C40: the exceptions `from_bytes` can raise, for every class (generated by tools/mkerrs.py; the text before and after
the generated part is hand-written).
-/

namespace Dmr

theorem Errs.map {E : List ErrKind} {x : Except PyErr α} (g : α → β) (h : Errs E x) : Errs E (x.map g) := by
  cases x with
  | error e => exact Errs.error (h e rfl)
  | ok a => exact Errs.ok _

/-- The same for a decoder on any stream. -/
def RErrs (E : List ErrKind) (r : Rd α) : Prop := ∀ s, Errs E (r s).1

theorem RErrs.pure {E : List ErrKind} (a : α) : RErrs E (Rd.pure a) := fun _ => Errs.ok _
theorem RErrs.bind {E : List ErrKind} {r : Rd α} {k : α → Rd β} (hr : RErrs E r) (hk : ∀ a, RErrs E (k a)) :
    RErrs E (r >>= k) := by
  intro s
  show Errs E (Rd.bind r k s).1
  unfold Rd.bind
  have := hr s
  rcases h : r s with ⟨e | a, s1⟩
  · rw [h] at this; exact Errs.error (this e rfl)
  · exact hk a s1
theorem RErrs.readBitsIntBe (n : Nat) : RErrs [.EOFError] (readBitsIntBe n) := by
  intro s
  unfold Dmr.readBitsIntBe
  dsimp only
  split
  · unfold readBytesNotAligned
    dsimp only
    split
    · rename_i h
      split at h
      · cases h
      · cases h; exact Errs.error (by decide)
    · exact Errs.ok _
  · exact Errs.ok _
theorem RErrs.readFlag : RErrs [.EOFError] readFlag := RErrs.bind (RErrs.readBitsIntBe 1) fun _ => RErrs.pure _
theorem RErrs.optionally {E : List ErrKind} {c : Bool} {r : Rd α} (h : RErrs E r) : RErrs E (optionally c r) := by
  unfold Dmr.optionally
  split
  · exact RErrs.bind h fun _ => RErrs.pure _
  · exact RErrs.pure _

theorem textHeader_errs (b : Bytes) :
    Errs [.EOFError] (fromBytes Motorola.TextMessageProtocol.TextMessageHeaderSequenceAndEncoding.read b) := by
  refine (?_ : RErrs _ Motorola.TextMessageProtocol.TextMessageHeaderSequenceAndEncoding.read) _
  unfold Motorola.TextMessageProtocol.TextMessageHeaderSequenceAndEncoding.read
  exact RErrs.bind RErrs.readFlag fun _ => RErrs.bind (RErrs.readBitsIntBe _) fun _ => RErrs.bind (RErrs.readBitsIntBe _) fun _ =>
    RErrs.bind (RErrs.optionally RErrs.readFlag) fun _ => RErrs.bind (RErrs.optionally (RErrs.readBitsIntBe _)) fun _ =>
    RErrs.bind (RErrs.readBitsIntBe _) fun _ => RErrs.pure _

theorem heartbeat_errs (b : Bytes) : Errs [.ValidationNotEqualError] (fromBytes Hytera.IpSiteConnectHeartbeat.read b) := by
  by_cases h1 : b.length = 1
  · obtain ⟨v, rfl⟩ := List.length_eq_one_iff.mp h1
    by_cases hv : v = 0
    · rw [(Hytera.C21_keepalive v).1 hv]; exact Errs.ok _
    · rw [(Hytera.C21_keepalive v).2 hv]; exact Errs.error (by decide)
  by_cases h20 : b.length = 20
  · by_cases hs : ∃ s, b = Hytera.pingPong s
    · obtain ⟨s, hs⟩ := hs
      rw [(Hytera.C21_pingpong b h20).1 s hs]; exact Errs.ok _
    · obtain ⟨p, hp⟩ := (Hytera.C21_pingpong b h20).2 (fun s h => hs ⟨s, h⟩)
      rw [hp]; exact Errs.error (by simp [PyErr.kind])
  · rw [Hytera.C21_unknown b h1 h20]; exact Errs.ok _

theorem Etsi.DmrCsbk.NegativeAckResponseData.exceptions (b : Bytes) : Errs [.EOFError] (fromBytes Etsi.DmrCsbk.NegativeAckResponseData.read b) := by rw [Etsi.DmrCsbk.NegativeAckResponseData.fixed.fromBytes]; exact Errs.ite (Errs.ok _) (Errs.error (by decide))
theorem Etsi.DmrCsbk.ServiceOptions.exceptions (b : Bytes) : Errs [.EOFError] (fromBytes Etsi.DmrCsbk.ServiceOptions.read b) := by rw [Etsi.DmrCsbk.ServiceOptions.fixed.fromBytes]; exact Errs.ite (Errs.ok _) (Errs.error (by decide))
theorem Etsi.DmrCsbk.UnitToUnitVoiceRequestData.exceptions (b : Bytes) : Errs [.EOFError] (fromBytes Etsi.DmrCsbk.UnitToUnitVoiceRequestData.read b) := by rw [Etsi.DmrCsbk.UnitToUnitVoiceRequestData.fixed.fromBytes]; exact Errs.ite (Errs.ok _) (Errs.error (by decide))
theorem Etsi.DmrCsbk.PreambleData.exceptions (b : Bytes) : Errs [.EOFError] (fromBytes Etsi.DmrCsbk.PreambleData.read b) := by rw [Etsi.DmrCsbk.PreambleData.fixed.fromBytes]; exact Errs.ite (Errs.ok _) (Errs.error (by decide))
theorem Etsi.DmrCsbk.ChannelTimingData.exceptions (b : Bytes) : Errs [.EOFError] (fromBytes Etsi.DmrCsbk.ChannelTimingData.read b) := by rw [Etsi.DmrCsbk.ChannelTimingData.fixed.fromBytes]; exact Errs.ite (Errs.ok _) (Errs.error (by decide))
theorem Etsi.DmrCsbk.BsOutboundActivationData.exceptions (b : Bytes) : Errs [.EOFError] (fromBytes Etsi.DmrCsbk.BsOutboundActivationData.read b) := by rw [Etsi.DmrCsbk.BsOutboundActivationData.fixed.fromBytes]; exact Errs.ite (Errs.ok _) (Errs.error (by decide))
theorem Etsi.DmrCsbk.UnitToUnitVoiceAnswerData.exceptions (b : Bytes) : Errs [.EOFError] (fromBytes Etsi.DmrCsbk.UnitToUnitVoiceAnswerData.read b) := by rw [Etsi.DmrCsbk.UnitToUnitVoiceAnswerData.fixed.fromBytes]; exact Errs.ite (Errs.ok _) (Errs.error (by decide))
theorem Etsi.DmrCsbk.exceptions (b : Bytes) : Errs [.EOFError] (fromBytes Etsi.DmrCsbk.read b) := by rw [Etsi.DmrCsbk.parses.fromBytes]; exact Errs.map _ (Etsi.DmrCsbk.spec_errs b 0)
theorem Etsi.DmrData.Rate1LastBlockUnconfirmed.exceptions (b : Bytes) : Errs [.EOFError] (fromBytes Etsi.DmrData.Rate1LastBlockUnconfirmed.read b) := by rw [Etsi.DmrData.Rate1LastBlockUnconfirmed.fixed.fromBytes]; exact Errs.ite (Errs.ok _) (Errs.error (by decide))
theorem Etsi.DmrData.Rate12LastBlockConfirmed.exceptions (b : Bytes) : Errs [.EOFError] (fromBytes Etsi.DmrData.Rate12LastBlockConfirmed.read b) := by rw [Etsi.DmrData.Rate12LastBlockConfirmed.fixed.fromBytes]; exact Errs.ite (Errs.ok _) (Errs.error (by decide))
theorem Etsi.DmrData.Rate12Confirmed.exceptions (b : Bytes) : Errs [.EOFError] (fromBytes Etsi.DmrData.Rate12Confirmed.read b) := by rw [Etsi.DmrData.Rate12Confirmed.fixed.fromBytes]; exact Errs.ite (Errs.ok _) (Errs.error (by decide))
theorem Etsi.DmrData.Rate34LastBlockUnconfirmed.exceptions (b : Bytes) : Errs [.EOFError] (fromBytes Etsi.DmrData.Rate34LastBlockUnconfirmed.read b) := by rw [Etsi.DmrData.Rate34LastBlockUnconfirmed.fixed.fromBytes]; exact Errs.ite (Errs.ok _) (Errs.error (by decide))
theorem Etsi.DmrData.Rate1LastBlockConfirmed.exceptions (b : Bytes) : Errs [.EOFError] (fromBytes Etsi.DmrData.Rate1LastBlockConfirmed.read b) := by rw [Etsi.DmrData.Rate1LastBlockConfirmed.fixed.fromBytes]; exact Errs.ite (Errs.ok _) (Errs.error (by decide))
theorem Etsi.DmrData.Rate1Unconfirmed.exceptions (b : Bytes) : Errs [.EOFError] (fromBytes Etsi.DmrData.Rate1Unconfirmed.read b) := by rw [Etsi.DmrData.Rate1Unconfirmed.fixed.fromBytes]; exact Errs.ite (Errs.ok _) (Errs.error (by decide))
theorem Etsi.DmrData.UdtLastBlock.exceptions (b : Bytes) : Errs [.EOFError] (fromBytes Etsi.DmrData.UdtLastBlock.read b) := by rw [Etsi.DmrData.UdtLastBlock.fixed.fromBytes]; exact Errs.ite (Errs.ok _) (Errs.error (by decide))
theorem Etsi.DmrData.Rate34Confirmed.exceptions (b : Bytes) : Errs [.EOFError] (fromBytes Etsi.DmrData.Rate34Confirmed.read b) := by rw [Etsi.DmrData.Rate34Confirmed.fixed.fromBytes]; exact Errs.ite (Errs.ok _) (Errs.error (by decide))
theorem Etsi.DmrData.Rate34LastBlockConfirmed.exceptions (b : Bytes) : Errs [.EOFError] (fromBytes Etsi.DmrData.Rate34LastBlockConfirmed.read b) := by rw [Etsi.DmrData.Rate34LastBlockConfirmed.fixed.fromBytes]; exact Errs.ite (Errs.ok _) (Errs.error (by decide))
theorem Etsi.DmrData.Rate34Unconfirmed.exceptions (b : Bytes) : Errs [.EOFError] (fromBytes Etsi.DmrData.Rate34Unconfirmed.read b) := by rw [Etsi.DmrData.Rate34Unconfirmed.fixed.fromBytes]; exact Errs.ite (Errs.ok _) (Errs.error (by decide))
theorem Etsi.DmrData.Rate12LastBlockUnconfirmed.exceptions (b : Bytes) : Errs [.EOFError] (fromBytes Etsi.DmrData.Rate12LastBlockUnconfirmed.read b) := by rw [Etsi.DmrData.Rate12LastBlockUnconfirmed.fixed.fromBytes]; exact Errs.ite (Errs.ok _) (Errs.error (by decide))
theorem Etsi.DmrData.Rate1Confirmed.exceptions (b : Bytes) : Errs [.EOFError] (fromBytes Etsi.DmrData.Rate1Confirmed.read b) := by rw [Etsi.DmrData.Rate1Confirmed.fixed.fromBytes]; exact Errs.ite (Errs.ok _) (Errs.error (by decide))
theorem Etsi.DmrData.Rate12Unconfirmed.exceptions (b : Bytes) : Errs [.EOFError] (fromBytes Etsi.DmrData.Rate12Unconfirmed.read b) := by rw [Etsi.DmrData.Rate12Unconfirmed.fixed.fromBytes]; exact Errs.ite (Errs.ok _) (Errs.error (by decide))
theorem Etsi.DmrData.exceptions (b : Bytes) : Errs [] (fromBytes Etsi.DmrData.read b) := Errs.ok _
theorem Etsi.DmrDataHeader.DataHeaderShortRaw.exceptions (b : Bytes) : Errs [.EOFError] (fromBytes Etsi.DmrDataHeader.DataHeaderShortRaw.read b) := by rw [Etsi.DmrDataHeader.DataHeaderShortRaw.fixed.fromBytes]; exact Errs.ite (Errs.ok _) (Errs.error (by decide))
theorem Etsi.DmrDataHeader.DataHeaderProprietary.exceptions (b : Bytes) : Errs [.EOFError] (fromBytes Etsi.DmrDataHeader.DataHeaderProprietary.read b) := by rw [Etsi.DmrDataHeader.DataHeaderProprietary.fixed.fromBytes]; exact Errs.ite (Errs.ok _) (Errs.error (by decide))
theorem Etsi.DmrDataHeader.DataHeaderUndefined.exceptions (b : Bytes) : Errs [] (fromBytes Etsi.DmrDataHeader.DataHeaderUndefined.read b) := Errs.ok _
theorem Etsi.DmrDataHeader.DataHeaderShortStatusPrecoded.exceptions (b : Bytes) : Errs [.EOFError] (fromBytes Etsi.DmrDataHeader.DataHeaderShortStatusPrecoded.read b) := by rw [Etsi.DmrDataHeader.DataHeaderShortStatusPrecoded.fixed.fromBytes]; exact Errs.ite (Errs.ok _) (Errs.error (by decide))
theorem Etsi.DmrDataHeader.DataHeaderResponse.exceptions (b : Bytes) : Errs [.EOFError] (fromBytes Etsi.DmrDataHeader.DataHeaderResponse.read b) := by rw [Etsi.DmrDataHeader.DataHeaderResponse.fixed.fromBytes]; exact Errs.ite (Errs.ok _) (Errs.error (by decide))
theorem Etsi.DmrDataHeader.DataHeaderConfirmed.exceptions (b : Bytes) : Errs [.EOFError] (fromBytes Etsi.DmrDataHeader.DataHeaderConfirmed.read b) := by rw [Etsi.DmrDataHeader.DataHeaderConfirmed.fixed.fromBytes]; exact Errs.ite (Errs.ok _) (Errs.error (by decide))
theorem Etsi.DmrDataHeader.DataHeaderUnconfirmed.exceptions (b : Bytes) : Errs [.EOFError] (fromBytes Etsi.DmrDataHeader.DataHeaderUnconfirmed.read b) := by rw [Etsi.DmrDataHeader.DataHeaderUnconfirmed.fixed.fromBytes]; exact Errs.ite (Errs.ok _) (Errs.error (by decide))
theorem Etsi.DmrDataHeader.DataHeaderShortDefined.exceptions (b : Bytes) : Errs [.EOFError] (fromBytes Etsi.DmrDataHeader.DataHeaderShortDefined.read b) := by rw [Etsi.DmrDataHeader.DataHeaderShortDefined.fixed.fromBytes]; exact Errs.ite (Errs.ok _) (Errs.error (by decide))
theorem Etsi.DmrDataHeader.DataHeaderUdt.exceptions (b : Bytes) : Errs [.EOFError] (fromBytes Etsi.DmrDataHeader.DataHeaderUdt.read b) := by rw [Etsi.DmrDataHeader.DataHeaderUdt.fixed.fromBytes]; exact Errs.ite (Errs.ok _) (Errs.error (by decide))
theorem Etsi.DmrDataHeader.exceptions (b : Bytes) : Errs [.EOFError] (fromBytes Etsi.DmrDataHeader.read b) := by rw [Etsi.DmrDataHeader.fixed.fromBytes]; exact Errs.ite (Errs.ok _) (Errs.error (by decide))
theorem Etsi.DmrIpUdp.UdpIpv4CompressedHeader.exceptions (b : Bytes) : Errs [.EOFError] (fromBytes Etsi.DmrIpUdp.UdpIpv4CompressedHeader.read b) := by rw [Etsi.DmrIpUdp.UdpIpv4CompressedHeader.parses.fromBytes]; exact Errs.map _ (Etsi.DmrIpUdp.UdpIpv4CompressedHeader.spec_errs b 0)
theorem Etsi.DmrIpUdp.exceptions (b : Bytes) : Errs [] (fromBytes Etsi.DmrIpUdp.read b) := Errs.ok _
theorem Etsi.FullLinkControl.GpsInfoLcPdu.exceptions (b : Bytes) : Errs [.EOFError] (fromBytes Etsi.FullLinkControl.GpsInfoLcPdu.read b) := by rw [Etsi.FullLinkControl.GpsInfoLcPdu.fixed.fromBytes]; exact Errs.ite (Errs.ok _) (Errs.error (by decide))
theorem Etsi.FullLinkControl.GroupVoiceChannelUser.exceptions (b : Bytes) : Errs [.EOFError] (fromBytes Etsi.FullLinkControl.GroupVoiceChannelUser.read b) := by rw [Etsi.FullLinkControl.GroupVoiceChannelUser.fixed.fromBytes]; exact Errs.ite (Errs.ok _) (Errs.error (by decide))
theorem Etsi.FullLinkControl.UnitToUnitVoiceChannelUser.exceptions (b : Bytes) : Errs [.EOFError] (fromBytes Etsi.FullLinkControl.UnitToUnitVoiceChannelUser.read b) := by rw [Etsi.FullLinkControl.UnitToUnitVoiceChannelUser.fixed.fromBytes]; exact Errs.ite (Errs.ok _) (Errs.error (by decide))
theorem Etsi.FullLinkControl.TalkerAliasHeader.exceptions (b : Bytes) : Errs [.EOFError] (fromBytes Etsi.FullLinkControl.TalkerAliasHeader.read b) := by rw [Etsi.FullLinkControl.TalkerAliasHeader.fixed.fromBytes]; exact Errs.ite (Errs.ok _) (Errs.error (by decide))
theorem Etsi.FullLinkControl.TalkerAliasContinuation.exceptions (b : Bytes) : Errs [.EOFError] (fromBytes Etsi.FullLinkControl.TalkerAliasContinuation.read b) := by rw [Etsi.FullLinkControl.TalkerAliasContinuation.fixed.fromBytes]; exact Errs.ite (Errs.ok _) (Errs.error (by decide))
theorem Etsi.FullLinkControl.exceptions (b : Bytes) : Errs [.EOFError] (fromBytes Etsi.FullLinkControl.read b) := by rw [Etsi.FullLinkControl.fromBytes_eq]; exact Etsi.FullLinkControl.spec_errs b
theorem Homebrew.Homebrew2015.TypeMasterPing.exceptions (b : Bytes) : Errs [.EOFError, .ValidationNotEqualError] (fromBytes Homebrew.Homebrew2015.TypeMasterPing.read b) := by rw [Homebrew.Homebrew2015.TypeMasterPing.parses.fromBytes]; exact Errs.map _ (Homebrew.Homebrew2015.TypeMasterPing.spec_errs b 0)
theorem Homebrew.Homebrew2015.TypeRepeaterPong.exceptions (b : Bytes) : Errs [.EOFError, .ValidationNotEqualError] (fromBytes Homebrew.Homebrew2015.TypeRepeaterPong.read b) := by rw [Homebrew.Homebrew2015.TypeRepeaterPong.parses.fromBytes]; exact Errs.map _ (Homebrew.Homebrew2015.TypeRepeaterPong.spec_errs b 0)
theorem Homebrew.Homebrew2015.TypeRepeaterClosing.exceptions (b : Bytes) : Errs [.EOFError, .ValidationNotEqualError] (fromBytes Homebrew.Homebrew2015.TypeRepeaterClosing.read b) := by rw [Homebrew.Homebrew2015.TypeRepeaterClosing.parses.fromBytes]; exact Errs.map _ (Homebrew.Homebrew2015.TypeRepeaterClosing.spec_errs b 0)
theorem Homebrew.Homebrew2015.TypeRepeaterConfiguration.exceptions (b : Bytes) : Errs [.EOFError, .UnicodeDecodeError] (fromBytes Homebrew.Homebrew2015.TypeRepeaterConfiguration.read b) := by rw [Homebrew.Homebrew2015.TypeRepeaterConfiguration.parses.fromBytes]; exact Errs.map _ (Homebrew.Homebrew2015.TypeRepeaterConfiguration.spec_errs b 0)
theorem Homebrew.Homebrew2015.TypeRepeaterLoginResponse.exceptions (b : Bytes) : Errs [.EOFError] (fromBytes Homebrew.Homebrew2015.TypeRepeaterLoginResponse.read b) := by rw [Homebrew.Homebrew2015.TypeRepeaterLoginResponse.fixed.fromBytes]; exact Errs.ite (Errs.ok _) (Errs.error (by decide))
theorem Homebrew.Homebrew2015.TypeRepeaterLoginRequest.exceptions (b : Bytes) : Errs [.EOFError] (fromBytes Homebrew.Homebrew2015.TypeRepeaterLoginRequest.read b) := by rw [Homebrew.Homebrew2015.TypeRepeaterLoginRequest.fixed.fromBytes]; exact Errs.ite (Errs.ok _) (Errs.error (by decide))
theorem Homebrew.Homebrew2015.TypeMasterNotAccept.exceptions (b : Bytes) : Errs [.EOFError, .ValidationNotEqualError] (fromBytes Homebrew.Homebrew2015.TypeMasterNotAccept.read b) := by rw [Homebrew.Homebrew2015.TypeMasterNotAccept.parses.fromBytes]; exact Errs.map _ (Homebrew.Homebrew2015.TypeMasterNotAccept.spec_errs b 0)
theorem Homebrew.Homebrew2015.TypeMasterRepeaterAck.exceptions (b : Bytes) : Errs [.EOFError, .ValidationNotEqualError] (fromBytes Homebrew.Homebrew2015.TypeMasterRepeaterAck.read b) := by rw [Homebrew.Homebrew2015.TypeMasterRepeaterAck.parses.fromBytes]; exact Errs.map _ (Homebrew.Homebrew2015.TypeMasterRepeaterAck.spec_errs b 0)
theorem Homebrew.Homebrew2015.TypeMasterClosing.exceptions (b : Bytes) : Errs [.EOFError, .ValidationNotEqualError] (fromBytes Homebrew.Homebrew2015.TypeMasterClosing.read b) := by rw [Homebrew.Homebrew2015.TypeMasterClosing.parses.fromBytes]; exact Errs.map _ (Homebrew.Homebrew2015.TypeMasterClosing.spec_errs b 0)
theorem Homebrew.Homebrew2015.TypeDmrData.exceptions (b : Bytes) : Errs [.EOFError] (fromBytes Homebrew.Homebrew2015.TypeDmrData.read b) := by rw [Homebrew.Homebrew2015.TypeDmrData.parses.fromBytes]; exact Errs.map _ (Homebrew.Homebrew2015.TypeDmrData.spec_errs b 0)
theorem Homebrew.Homebrew2015.TypeRepeaterOptions.exceptions (b : Bytes) : Errs [.EOFError, .UnicodeDecodeError] (fromBytes Homebrew.Homebrew2015.TypeRepeaterOptions.read b) := by rw [Homebrew.Homebrew2015.TypeRepeaterOptions.parses.fromBytes]; exact Errs.map _ (Homebrew.Homebrew2015.TypeRepeaterOptions.spec_errs b 0)
theorem Homebrew.Homebrew2015.exceptions (b : Bytes) : Errs [.EOFError, .ValidationNotEqualError, .UnicodeDecodeError] (fromBytes Homebrew.Homebrew2015.read b) := by rw [Homebrew.Homebrew2015.parses.fromBytes]; exact Errs.map _ (Homebrew.Homebrew2015.spec_errs b 0)
theorem Homebrew.Mmdvm2020.TypeMasterPong.exceptions (b : Bytes) : Errs [.EOFError, .ValidationNotEqualError] (fromBytes Homebrew.Mmdvm2020.TypeMasterPong.read b) := by rw [Homebrew.Mmdvm2020.TypeMasterPong.parses.fromBytes]; exact Errs.map _ (Homebrew.Mmdvm2020.TypeMasterPong.spec_errs b 0)
theorem Homebrew.Mmdvm2020.TypeRadioPosition.exceptions (b : Bytes) : Errs [.EOFError] (fromBytes Homebrew.Mmdvm2020.TypeRadioPosition.read b) := by rw [Homebrew.Mmdvm2020.TypeRadioPosition.fixed.fromBytes]; exact Errs.ite (Errs.ok _) (Errs.error (by decide))
theorem Homebrew.Mmdvm2020.TypeTalkerAlias.exceptions (b : Bytes) : Errs [.EOFError, .UnicodeDecodeError] (fromBytes Homebrew.Mmdvm2020.TypeTalkerAlias.read b) := by rw [Homebrew.Mmdvm2020.TypeTalkerAlias.parses.fromBytes]; exact Errs.map _ (Homebrew.Mmdvm2020.TypeTalkerAlias.spec_errs b 0)
theorem Homebrew.Mmdvm2020.TypeRepeaterClosing.exceptions (b : Bytes) : Errs [.EOFError, .ValidationNotEqualError] (fromBytes Homebrew.Mmdvm2020.TypeRepeaterClosing.read b) := by rw [Homebrew.Mmdvm2020.TypeRepeaterClosing.parses.fromBytes]; exact Errs.map _ (Homebrew.Mmdvm2020.TypeRepeaterClosing.spec_errs b 0)
theorem Homebrew.Mmdvm2020.TypeRepeaterConfiguration.exceptions (b : Bytes) : Errs [.EOFError, .UnicodeDecodeError] (fromBytes Homebrew.Mmdvm2020.TypeRepeaterConfiguration.read b) := by rw [Homebrew.Mmdvm2020.TypeRepeaterConfiguration.parses.fromBytes]; exact Errs.map _ (Homebrew.Mmdvm2020.TypeRepeaterConfiguration.spec_errs b 0)
theorem Homebrew.Mmdvm2020.TypeRepeaterLoginResponse.exceptions (b : Bytes) : Errs [.EOFError] (fromBytes Homebrew.Mmdvm2020.TypeRepeaterLoginResponse.read b) := by rw [Homebrew.Mmdvm2020.TypeRepeaterLoginResponse.fixed.fromBytes]; exact Errs.ite (Errs.ok _) (Errs.error (by decide))
theorem Homebrew.Mmdvm2020.TypeRepeaterLoginRequest.exceptions (b : Bytes) : Errs [.EOFError] (fromBytes Homebrew.Mmdvm2020.TypeRepeaterLoginRequest.read b) := by rw [Homebrew.Mmdvm2020.TypeRepeaterLoginRequest.fixed.fromBytes]; exact Errs.ite (Errs.ok _) (Errs.error (by decide))
theorem Homebrew.Mmdvm2020.TypeMasterNotAccept.exceptions (b : Bytes) : Errs [.EOFError, .ValidationNotEqualError] (fromBytes Homebrew.Mmdvm2020.TypeMasterNotAccept.read b) := by rw [Homebrew.Mmdvm2020.TypeMasterNotAccept.parses.fromBytes]; exact Errs.map _ (Homebrew.Mmdvm2020.TypeMasterNotAccept.spec_errs b 0)
theorem Homebrew.Mmdvm2020.TypeUnknown.exceptions (b : Bytes) : Errs [] (fromBytes Homebrew.Mmdvm2020.TypeUnknown.read b) := by rw [Homebrew.Mmdvm2020.TypeUnknown.parses.fromBytes]; exact Errs.map _ (Homebrew.Mmdvm2020.TypeUnknown.spec_errs b 0)
theorem Homebrew.Mmdvm2020.TypeMasterRepeaterAck.exceptions (b : Bytes) : Errs [.EOFError, .ValidationNotEqualError] (fromBytes Homebrew.Mmdvm2020.TypeMasterRepeaterAck.read b) := by rw [Homebrew.Mmdvm2020.TypeMasterRepeaterAck.parses.fromBytes]; exact Errs.map _ (Homebrew.Mmdvm2020.TypeMasterRepeaterAck.spec_errs b 0)
theorem Homebrew.Mmdvm2020.TypeMasterClosing.exceptions (b : Bytes) : Errs [.EOFError, .ValidationNotEqualError] (fromBytes Homebrew.Mmdvm2020.TypeMasterClosing.read b) := by rw [Homebrew.Mmdvm2020.TypeMasterClosing.parses.fromBytes]; exact Errs.map _ (Homebrew.Mmdvm2020.TypeMasterClosing.spec_errs b 0)
theorem Homebrew.Mmdvm2020.TypeDmrData.exceptions (b : Bytes) : Errs [.EOFError] (fromBytes Homebrew.Mmdvm2020.TypeDmrData.read b) := by rw [Homebrew.Mmdvm2020.TypeDmrData.parses.fromBytes]; exact Errs.map _ (Homebrew.Mmdvm2020.TypeDmrData.spec_errs b 0)
theorem Homebrew.Mmdvm2020.TypeRepeaterBeacon.exceptions (b : Bytes) : Errs [] (fromBytes Homebrew.Mmdvm2020.TypeRepeaterBeacon.read b) := by rw [Homebrew.Mmdvm2020.TypeRepeaterBeacon.parses.fromBytes]; exact Errs.map _ (Homebrew.Mmdvm2020.TypeRepeaterBeacon.spec_errs b 0)
theorem Homebrew.Mmdvm2020.TypeRepeaterOptions.exceptions (b : Bytes) : Errs [.EOFError, .UnicodeDecodeError] (fromBytes Homebrew.Mmdvm2020.TypeRepeaterOptions.read b) := by rw [Homebrew.Mmdvm2020.TypeRepeaterOptions.parses.fromBytes]; exact Errs.map _ (Homebrew.Mmdvm2020.TypeRepeaterOptions.spec_errs b 0)
theorem Homebrew.Mmdvm2020.TypeRepeaterPing.exceptions (b : Bytes) : Errs [.EOFError, .ValidationNotEqualError] (fromBytes Homebrew.Mmdvm2020.TypeRepeaterPing.read b) := by rw [Homebrew.Mmdvm2020.TypeRepeaterPing.parses.fromBytes]; exact Errs.map _ (Homebrew.Mmdvm2020.TypeRepeaterPing.spec_errs b 0)
theorem Homebrew.Mmdvm2020.exceptions (b : Bytes) : Errs [.EOFError, .ValidationNotEqualError, .UnicodeDecodeError] (fromBytes Homebrew.Mmdvm2020.read b) := by rw [Homebrew.Mmdvm2020.parses.fromBytes]; exact Errs.map _ (Homebrew.Mmdvm2020.spec_errs b 0)
theorem Hytera.DataDeliveryStates.exceptions (b : Bytes) : Errs [.EOFError] (fromBytes Hytera.DataDeliveryStates.read b) := by rw [Hytera.DataDeliveryStates.fixed.fromBytes]; exact Errs.ite (Errs.ok _) (Errs.error (by decide))
theorem Hytera.DataTransmitProtocol.LastDataSlice.exceptions (b : Bytes) : Errs [.EOFError] (fromBytes Hytera.DataTransmitProtocol.LastDataSlice.read b) := by rw [Hytera.DataTransmitProtocol.LastDataSlice.fixed.fromBytes]; exact Errs.ite (Errs.ok _) (Errs.error (by decide))
theorem Hytera.DataTransmitProtocol.DataSliceAnswer.exceptions (b : Bytes) : Errs [.EOFError] (fromBytes Hytera.DataTransmitProtocol.DataSliceAnswer.read b) := by rw [Hytera.DataTransmitProtocol.DataSliceAnswer.fixed.fromBytes]; exact Errs.ite (Errs.ok _) (Errs.error (by decide))
theorem Hytera.DataTransmitProtocol.LastDataSliceAnswer.exceptions (b : Bytes) : Errs [.EOFError] (fromBytes Hytera.DataTransmitProtocol.LastDataSliceAnswer.read b) := by rw [Hytera.DataTransmitProtocol.LastDataSliceAnswer.fixed.fromBytes]; exact Errs.ite (Errs.ok _) (Errs.error (by decide))
theorem Hytera.DataTransmitProtocol.DtpAnswer.exceptions (b : Bytes) : Errs [.EOFError] (fromBytes Hytera.DataTransmitProtocol.DtpAnswer.read b) := by rw [Hytera.DataTransmitProtocol.DtpAnswer.fixed.fromBytes]; exact Errs.ite (Errs.ok _) (Errs.error (by decide))
theorem Hytera.DataTransmitProtocol.exceptions (b : Bytes) : Errs [.EOFError, .UnicodeDecodeError, .ValueError] (fromBytes Hytera.DataTransmitProtocol.read b) := by rw [Hytera.DataTransmitProtocol.parses.fromBytes]; exact Errs.map _ (Hytera.DataTransmitProtocol.spec_errs b 0)
theorem Hytera.Datetimestring.exceptions (b : Bytes) : Errs [.EOFError, .UnicodeDecodeError] (fromBytes Hytera.Datetimestring.read b) := by rw [Hytera.Datetimestring.parses.fromBytes]; exact Errs.map _ (Hytera.Datetimestring.spec_errs b 0)
theorem Hytera.Gpsdata.exceptions (b : Bytes) : Errs [.EOFError] (fromBytes Hytera.Gpsdata.read b) := by rw [Hytera.Gpsdata.fixed.fromBytes]; exact Errs.ite (Errs.ok _) (Errs.error (by decide))
theorem Hytera.HyteraDmrApplicationProtocol.UndefinedProtocol.exceptions (b : Bytes) : Errs [] (fromBytes Hytera.HyteraDmrApplicationProtocol.UndefinedProtocol.read b) := Errs.ok _
theorem Hytera.HyteraDmrApplicationProtocol.exceptions (b : Bytes) : Errs [.EOFError, .ValidationNotEqualError, .UnicodeDecodeError, .ValueError] (fromBytes Hytera.HyteraDmrApplicationProtocol.read b) := by rw [Hytera.HyteraDmrApplicationProtocol.parses.fromBytes]; exact Errs.map _ (Hytera.HyteraDmrApplicationProtocol.spec_errs b 0)
theorem Hytera.HyteraRadioNetworkProtocol.exceptions (b : Bytes) : Errs [.EOFError, .ValidationNotEqualError, .UnicodeDecodeError, .ValueError] (fromBytes Hytera.HyteraRadioNetworkProtocol.read b) := by rw [Hytera.HyteraRadioNetworkProtocol.parses.fromBytes]; exact Errs.map _ (Hytera.HyteraRadioNetworkProtocol.spec_errs b 0)
theorem Hytera.HyteraSimpleTransportReliabilityProtocol.Option.exceptions (b : Bytes) : Errs [.EOFError] (fromBytes Hytera.HyteraSimpleTransportReliabilityProtocol.Option.read b) := by rw [Hytera.HyteraSimpleTransportReliabilityProtocol.Option.parses.fromBytes]; exact Errs.map _ (Hytera.HyteraSimpleTransportReliabilityProtocol.Option.spec_errs b 0)
theorem Hytera.HyteraSimpleTransportReliabilityProtocol.exceptions (b : Bytes) : Errs [.EOFError, .ValidationNotEqualError, .UnicodeDecodeError, .ValueError] (fromBytes Hytera.HyteraSimpleTransportReliabilityProtocol.read b) := by rw [Hytera.HyteraSimpleTransportReliabilityProtocol.parses.fromBytes]; exact Errs.map _ (Hytera.HyteraSimpleTransportReliabilityProtocol.spec_errs b 0)
theorem Hytera.Intervalstring.exceptions (b : Bytes) : Errs [.EOFError, .UnicodeDecodeError] (fromBytes Hytera.Intervalstring.read b) := by rw [Hytera.Intervalstring.parses.fromBytes]; exact Errs.map _ (Hytera.Intervalstring.spec_errs b 0)
theorem Hytera.IpSiteConnectHeartbeat.Keepalive.exceptions (b : Bytes) : Errs [.EOFError, .ValidationNotEqualError] (fromBytes Hytera.IpSiteConnectHeartbeat.Keepalive.read b) := by rw [Hytera.IpSiteConnectHeartbeat.Keepalive.parses.fromBytes]; exact Errs.map _ (Hytera.IpSiteConnectHeartbeat.Keepalive.spec_errs b 0)
theorem Hytera.IpSiteConnectHeartbeat.PingPong.exceptions (b : Bytes) : Errs [.EOFError, .ValidationNotEqualError] (fromBytes Hytera.IpSiteConnectHeartbeat.PingPong.read b) := by rw [Hytera.IpSiteConnectHeartbeat.PingPong.parses.fromBytes]; exact Errs.map _ (Hytera.IpSiteConnectHeartbeat.PingPong.spec_errs b 0)
theorem Hytera.IpSiteConnectHeartbeat.Unknown.exceptions (b : Bytes) : Errs [] (fromBytes Hytera.IpSiteConnectHeartbeat.Unknown.read b) := Errs.ok _
theorem Hytera.IpSiteConnectHeartbeat.exceptions (b : Bytes) : Errs [.ValidationNotEqualError] (fromBytes Hytera.IpSiteConnectHeartbeat.read b) := heartbeat_errs b
theorem Hytera.IpSiteConnectProtocol.exceptions (b : Bytes) : Errs [.EOFError, .ValidationNotEqualError] (fromBytes Hytera.IpSiteConnectProtocol.read b) := by rw [Hytera.IpSiteConnectProtocol.parses.fromBytes]; exact Errs.map _ (Hytera.IpSiteConnectProtocol.spec_errs b 0)
theorem Hytera.LocationProtocol.TriggeredReportStopAnswer.exceptions (b : Bytes) : Errs [.EOFError] (fromBytes Hytera.LocationProtocol.TriggeredReportStopAnswer.read b) := by rw [Hytera.LocationProtocol.TriggeredReportStopAnswer.fixed.fromBytes]; exact Errs.ite (Errs.ok _) (Errs.error (by decide))
theorem Hytera.LocationProtocol.ConditionReportRequest.exceptions (b : Bytes) : Errs [.EOFError, .UnicodeDecodeError] (fromBytes Hytera.LocationProtocol.ConditionReportRequest.read b) := by rw [Hytera.LocationProtocol.ConditionReportRequest.parses.fromBytes]; exact Errs.map _ (Hytera.LocationProtocol.ConditionReportRequest.spec_errs b 0)
theorem Hytera.LocationProtocol.QuickGpsPayload.exceptions (b : Bytes) : Errs [.EOFError, .UnicodeDecodeError] (fromBytes Hytera.LocationProtocol.QuickGpsPayload.read b) := by rw [Hytera.LocationProtocol.QuickGpsPayload.parses.fromBytes]; exact Errs.map _ (Hytera.LocationProtocol.QuickGpsPayload.spec_errs b 0)
theorem Hytera.LocationProtocol.ConditionQuickGpsRequest.exceptions (b : Bytes) : Errs [.EOFError, .UnicodeDecodeError] (fromBytes Hytera.LocationProtocol.ConditionQuickGpsRequest.read b) := by rw [Hytera.LocationProtocol.ConditionQuickGpsRequest.parses.fromBytes]; exact Errs.map _ (Hytera.LocationProtocol.ConditionQuickGpsRequest.spec_errs b 0)
theorem Hytera.LocationProtocol.ConditionReport.exceptions (b : Bytes) : Errs [.EOFError] (fromBytes Hytera.LocationProtocol.ConditionReport.read b) := by rw [Hytera.LocationProtocol.ConditionReport.fixed.fromBytes]; exact Errs.ite (Errs.ok _) (Errs.error (by decide))
theorem Hytera.LocationProtocol.EmergencyReport.exceptions (b : Bytes) : Errs [.EOFError] (fromBytes Hytera.LocationProtocol.EmergencyReport.read b) := by rw [Hytera.LocationProtocol.EmergencyReport.fixed.fromBytes]; exact Errs.ite (Errs.ok _) (Errs.error (by decide))
theorem Hytera.LocationProtocol.TriggeredReportAnswer.exceptions (b : Bytes) : Errs [.EOFError] (fromBytes Hytera.LocationProtocol.TriggeredReportAnswer.read b) := by rw [Hytera.LocationProtocol.TriggeredReportAnswer.fixed.fromBytes]; exact Errs.ite (Errs.ok _) (Errs.error (by decide))
theorem Hytera.LocationProtocol.StandardAnswerWithRssi.exceptions (b : Bytes) : Errs [.EOFError] (fromBytes Hytera.LocationProtocol.StandardAnswerWithRssi.read b) := by rw [Hytera.LocationProtocol.StandardAnswerWithRssi.fixed.fromBytes]; exact Errs.ite (Errs.ok _) (Errs.error (by decide))
theorem Hytera.LocationProtocol.StandardRequest.exceptions (b : Bytes) : Errs [.EOFError] (fromBytes Hytera.LocationProtocol.StandardRequest.read b) := by rw [Hytera.LocationProtocol.StandardRequest.fixed.fromBytes]; exact Errs.ite (Errs.ok _) (Errs.error (by decide))
theorem Hytera.LocationProtocol.TriggeredReportRequest.exceptions (b : Bytes) : Errs [.EOFError, .UnicodeDecodeError] (fromBytes Hytera.LocationProtocol.TriggeredReportRequest.read b) := by rw [Hytera.LocationProtocol.TriggeredReportRequest.parses.fromBytes]; exact Errs.map _ (Hytera.LocationProtocol.TriggeredReportRequest.spec_errs b 0)
theorem Hytera.LocationProtocol.StandardAnswer.exceptions (b : Bytes) : Errs [.EOFError] (fromBytes Hytera.LocationProtocol.StandardAnswer.read b) := by rw [Hytera.LocationProtocol.StandardAnswer.fixed.fromBytes]; exact Errs.ite (Errs.ok _) (Errs.error (by decide))
theorem Hytera.LocationProtocol.ConditionReportAnswer.exceptions (b : Bytes) : Errs [.EOFError] (fromBytes Hytera.LocationProtocol.ConditionReportAnswer.read b) := by rw [Hytera.LocationProtocol.ConditionReportAnswer.fixed.fromBytes]; exact Errs.ite (Errs.ok _) (Errs.error (by decide))
theorem Hytera.LocationProtocol.EmergencyReportStopRequest.exceptions (b : Bytes) : Errs [.EOFError] (fromBytes Hytera.LocationProtocol.EmergencyReportStopRequest.read b) := by rw [Hytera.LocationProtocol.EmergencyReportStopRequest.fixed.fromBytes]; exact Errs.ite (Errs.ok _) (Errs.error (by decide))
theorem Hytera.LocationProtocol.ConditionQuickGpsAnswer.exceptions (b : Bytes) : Errs [.EOFError] (fromBytes Hytera.LocationProtocol.ConditionQuickGpsAnswer.read b) := by rw [Hytera.LocationProtocol.ConditionQuickGpsAnswer.fixed.fromBytes]; exact Errs.ite (Errs.ok _) (Errs.error (by decide))
theorem Hytera.LocationProtocol.TriggeredReport.exceptions (b : Bytes) : Errs [.EOFError, .UnicodeDecodeError] (fromBytes Hytera.LocationProtocol.TriggeredReport.read b) := by rw [Hytera.LocationProtocol.TriggeredReport.parses.fromBytes]; exact Errs.map _ (Hytera.LocationProtocol.TriggeredReport.spec_errs b 0)
theorem Hytera.LocationProtocol.ConditionReportWithRssi.exceptions (b : Bytes) : Errs [.EOFError] (fromBytes Hytera.LocationProtocol.ConditionReportWithRssi.read b) := by rw [Hytera.LocationProtocol.ConditionReportWithRssi.fixed.fromBytes]; exact Errs.ite (Errs.ok _) (Errs.error (by decide))
theorem Hytera.LocationProtocol.EmergencyReportStopAnswer.exceptions (b : Bytes) : Errs [.EOFError] (fromBytes Hytera.LocationProtocol.EmergencyReportStopAnswer.read b) := by rw [Hytera.LocationProtocol.EmergencyReportStopAnswer.fixed.fromBytes]; exact Errs.ite (Errs.ok _) (Errs.error (by decide))
theorem Hytera.LocationProtocol.TriggeredReportStopRequest.exceptions (b : Bytes) : Errs [.EOFError] (fromBytes Hytera.LocationProtocol.TriggeredReportStopRequest.read b) := by rw [Hytera.LocationProtocol.TriggeredReportStopRequest.fixed.fromBytes]; exact Errs.ite (Errs.ok _) (Errs.error (by decide))
theorem Hytera.LocationProtocol.exceptions (b : Bytes) : Errs [.EOFError, .UnicodeDecodeError] (fromBytes Hytera.LocationProtocol.read b) := by rw [Hytera.LocationProtocol.parses.fromBytes]; exact Errs.map _ (Hytera.LocationProtocol.spec_errs b 0)
theorem Hytera.RadioControlProtocol.BroadcastStatusConfigurationReply.exceptions (b : Bytes) : Errs [.EOFError] (fromBytes Hytera.RadioControlProtocol.BroadcastStatusConfigurationReply.read b) := by rw [Hytera.RadioControlProtocol.BroadcastStatusConfigurationReply.fixed.fromBytes]; exact Errs.ite (Errs.ok _) (Errs.error (by decide))
theorem Hytera.RadioControlProtocol.BroadcastConfiguration.exceptions (b : Bytes) : Errs [.EOFError] (fromBytes Hytera.RadioControlProtocol.BroadcastConfiguration.read b) := by rw [Hytera.RadioControlProtocol.BroadcastConfiguration.fixed.fromBytes]; exact Errs.ite (Errs.ok _) (Errs.error (by decide))
theorem Hytera.RadioControlProtocol.BroadcastStatusConfigurationRequest.exceptions (b : Bytes) : Errs [.EOFError] (fromBytes Hytera.RadioControlProtocol.BroadcastStatusConfigurationRequest.read b) := by rw [Hytera.RadioControlProtocol.BroadcastStatusConfigurationRequest.parses.fromBytes]; exact Errs.map _ (Hytera.RadioControlProtocol.BroadcastStatusConfigurationRequest.spec_errs b 0)
theorem Hytera.RadioControlProtocol.CallRequest.exceptions (b : Bytes) : Errs [.EOFError] (fromBytes Hytera.RadioControlProtocol.CallRequest.read b) := by rw [Hytera.RadioControlProtocol.CallRequest.fixed.fromBytes]; exact Errs.ite (Errs.ok _) (Errs.error (by decide))
theorem Hytera.RadioControlProtocol.RemoveRadioReply.exceptions (b : Bytes) : Errs [.EOFError] (fromBytes Hytera.RadioControlProtocol.RemoveRadioReply.read b) := by rw [Hytera.RadioControlProtocol.RemoveRadioReply.fixed.fromBytes]; exact Errs.ite (Errs.ok _) (Errs.error (by decide))
theorem Hytera.RadioControlProtocol.RemoveRadioRequest.exceptions (b : Bytes) : Errs [] (fromBytes Hytera.RadioControlProtocol.RemoveRadioRequest.read b) := Errs.ok _
theorem Hytera.RadioControlProtocol.CallReply.exceptions (b : Bytes) : Errs [.EOFError] (fromBytes Hytera.RadioControlProtocol.CallReply.read b) := by rw [Hytera.RadioControlProtocol.CallReply.fixed.fromBytes]; exact Errs.ite (Errs.ok _) (Errs.error (by decide))
theorem Hytera.RadioControlProtocol.exceptions (b : Bytes) : Errs [.EOFError, .UnicodeDecodeError] (fromBytes Hytera.RadioControlProtocol.read b) := by rw [Hytera.RadioControlProtocol.parses.fromBytes]; exact Errs.map _ (Hytera.RadioControlProtocol.spec_errs b 0)
theorem Hytera.RadioId.exceptions (b : Bytes) : Errs [.EOFError] (fromBytes Hytera.RadioId.read b) := by rw [Hytera.RadioId.fixed.fromBytes]; exact Errs.ite (Errs.ok _) (Errs.error (by decide))
theorem Hytera.RadioIp.exceptions (b : Bytes) : Errs [.EOFError] (fromBytes Hytera.RadioIp.read b) := by rw [Hytera.RadioIp.fixed.fromBytes]; exact Errs.ite (Errs.ok _) (Errs.error (by decide))
theorem Hytera.RadioRegistrationService.exceptions (b : Bytes) : Errs [.EOFError, .ValidationNotEqualError] (fromBytes Hytera.RadioRegistrationService.read b) := by rw [Hytera.RadioRegistrationService.parses.fromBytes]; exact Errs.map _ (Hytera.RadioRegistrationService.spec_errs b 0)
theorem Hytera.RealTimeTransportProtocol.FixedHeader.exceptions (b : Bytes) : Errs [.EOFError, .ValidationNotEqualError] (fromBytes Hytera.RealTimeTransportProtocol.FixedHeader.read b) := by rw [Hytera.RealTimeTransportProtocol.FixedHeader.parses.fromBytes]; exact Errs.map _ (Hytera.RealTimeTransportProtocol.FixedHeader.spec_errs b 0)
theorem Hytera.RealTimeTransportProtocol.HeaderExtension.exceptions (b : Bytes) : Errs [.EOFError] (fromBytes Hytera.RealTimeTransportProtocol.HeaderExtension.read b) := by rw [Hytera.RealTimeTransportProtocol.HeaderExtension.fixed.fromBytes]; exact Errs.ite (Errs.ok _) (Errs.error (by decide))
theorem Hytera.RealTimeTransportProtocol.exceptions (b : Bytes) : Errs [.EOFError, .ValidationNotEqualError, .ValueError] (fromBytes Hytera.RealTimeTransportProtocol.read b) := by rw [Hytera.RealTimeTransportProtocol.parses.fromBytes]; exact Errs.map _ (Hytera.RealTimeTransportProtocol.spec_errs b 0)
theorem Hytera.TelemetryProtocol.StandardStatusReport.exceptions (b : Bytes) : Errs [.EOFError] (fromBytes Hytera.TelemetryProtocol.StandardStatusReport.read b) := by rw [Hytera.TelemetryProtocol.StandardStatusReport.fixed.fromBytes]; exact Errs.ite (Errs.ok _) (Errs.error (by decide))
theorem Hytera.TelemetryProtocol.VioExtendedStatus.exceptions (b : Bytes) : Errs [.EOFError, .UnicodeDecodeError] (fromBytes Hytera.TelemetryProtocol.VioExtendedStatus.read b) := by rw [Hytera.TelemetryProtocol.VioExtendedStatus.parses.fromBytes]; exact Errs.map _ (Hytera.TelemetryProtocol.VioExtendedStatus.spec_errs b 0)
theorem Hytera.TelemetryProtocol.RemoteControlAnswer.exceptions (b : Bytes) : Errs [.EOFError] (fromBytes Hytera.TelemetryProtocol.RemoteControlAnswer.read b) := by rw [Hytera.TelemetryProtocol.RemoteControlAnswer.fixed.fromBytes]; exact Errs.ite (Errs.ok _) (Errs.error (by decide))
theorem Hytera.TelemetryProtocol.RemoteControlRequest.exceptions (b : Bytes) : Errs [.EOFError] (fromBytes Hytera.TelemetryProtocol.RemoteControlRequest.read b) := by rw [Hytera.TelemetryProtocol.RemoteControlRequest.fixed.fromBytes]; exact Errs.ite (Errs.ok _) (Errs.error (by decide))
theorem Hytera.TelemetryProtocol.ExtendedStatusReport.exceptions (b : Bytes) : Errs [.EOFError, .UnicodeDecodeError] (fromBytes Hytera.TelemetryProtocol.ExtendedStatusReport.read b) := by rw [Hytera.TelemetryProtocol.ExtendedStatusReport.parses.fromBytes]; exact Errs.map _ (Hytera.TelemetryProtocol.ExtendedStatusReport.spec_errs b 0)
theorem Hytera.TelemetryProtocol.StandardStatusRequest.exceptions (b : Bytes) : Errs [.EOFError] (fromBytes Hytera.TelemetryProtocol.StandardStatusRequest.read b) := by rw [Hytera.TelemetryProtocol.StandardStatusRequest.fixed.fromBytes]; exact Errs.ite (Errs.ok _) (Errs.error (by decide))
theorem Hytera.TelemetryProtocol.exceptions (b : Bytes) : Errs [.EOFError, .UnicodeDecodeError] (fromBytes Hytera.TelemetryProtocol.read b) := by rw [Hytera.TelemetryProtocol.parses.fromBytes]; exact Errs.map _ (Hytera.TelemetryProtocol.spec_errs b 0)
theorem Hytera.TextMessageProtocol.exceptions (b : Bytes) : Errs [.EOFError, .UnicodeDecodeError, .ValueError] (fromBytes Hytera.TextMessageProtocol.read b) := by rw [Hytera.TextMessageProtocol.parses.fromBytes]; exact Errs.map _ (Hytera.TextMessageProtocol.spec_errs b 0)
theorem Motorola.AutomaticRegistrationService.MessageHeaderBits.exceptions (b : Bytes) : Errs [.EOFError] (fromBytes Motorola.AutomaticRegistrationService.MessageHeaderBits.read b) := by rw [Motorola.AutomaticRegistrationService.MessageHeaderBits.fixed.fromBytes]; exact Errs.ite (Errs.ok _) (Errs.error (by decide))
theorem Motorola.AutomaticRegistrationService.DeviceRegistrationAcknowledgementHeader.exceptions (b : Bytes) : Errs [.EOFError] (fromBytes Motorola.AutomaticRegistrationService.DeviceRegistrationAcknowledgementHeader.read b) := by rw [Motorola.AutomaticRegistrationService.DeviceRegistrationAcknowledgementHeader.fixed.fromBytes]; exact Errs.ite (Errs.ok _) (Errs.error (by decide))
theorem Motorola.AutomaticRegistrationService.DeviceRegistrationAcknowledgementFailureReason.exceptions (b : Bytes) : Errs [.EOFError] (fromBytes Motorola.AutomaticRegistrationService.DeviceRegistrationAcknowledgementFailureReason.read b) := by rw [Motorola.AutomaticRegistrationService.DeviceRegistrationAcknowledgementFailureReason.fixed.fromBytes]; exact Errs.ite (Errs.ok _) (Errs.error (by decide))
theorem Motorola.AutomaticRegistrationService.DeviceRegistrationMessageHeader.exceptions (b : Bytes) : Errs [.EOFError] (fromBytes Motorola.AutomaticRegistrationService.DeviceRegistrationMessageHeader.read b) := by rw [Motorola.AutomaticRegistrationService.DeviceRegistrationMessageHeader.fixed.fromBytes]; exact Errs.ite (Errs.ok _) (Errs.error (by decide))
theorem Motorola.AutomaticRegistrationService.DeviceDeregistrationMessage.exceptions (b : Bytes) : Errs [] (fromBytes Motorola.AutomaticRegistrationService.DeviceDeregistrationMessage.read b) := Errs.ok _
theorem Motorola.AutomaticRegistrationService.ArsQueryMessage.exceptions (b : Bytes) : Errs [] (fromBytes Motorola.AutomaticRegistrationService.ArsQueryMessage.read b) := Errs.ok _
theorem Motorola.AutomaticRegistrationService.exceptions (b : Bytes) : Errs [.EOFError] (fromBytes Motorola.AutomaticRegistrationService.read b) := by rw [Motorola.AutomaticRegistrationService.parses.fromBytes]; exact Errs.map _ (Motorola.AutomaticRegistrationService.spec_errs b 0)
theorem Motorola.MotorolaBinaryXml.OpaqueElementValue.exceptions (b : Bytes) : Errs [.EOFError] (fromBytes Motorola.MotorolaBinaryXml.OpaqueElementValue.read b) := by rw [Motorola.MotorolaBinaryXml.OpaqueElementValue.parses.fromBytes]; exact Errs.map _ (Motorola.MotorolaBinaryXml.OpaqueElementValue.spec_errs b 0)
theorem Motorola.MotorolaBinaryXml.Opaque1byteValue.exceptions (b : Bytes) : Errs [.EOFError] (fromBytes Motorola.MotorolaBinaryXml.Opaque1byteValue.read b) := by rw [Motorola.MotorolaBinaryXml.Opaque1byteValue.fixed.fromBytes]; exact Errs.ite (Errs.ok _) (Errs.error (by decide))
theorem Motorola.MotorolaBinaryXml.Uintvar.exceptions (b : Bytes) : Errs [.EOFError] (fromBytes Motorola.MotorolaBinaryXml.Uintvar.read b) := by rw [Motorola.MotorolaBinaryXml.Uintvar.parses.fromBytes]; exact Errs.map _ (Motorola.MotorolaBinaryXml.Uintvar.spec_errs b 0)
theorem Motorola.MotorolaBinaryXml.ConstantDataTableReference.exceptions (b : Bytes) : Errs [.EOFError] (fromBytes Motorola.MotorolaBinaryXml.ConstantDataTableReference.read b) := by rw [Motorola.MotorolaBinaryXml.ConstantDataTableReference.parses.fromBytes]; exact Errs.map _ (Motorola.MotorolaBinaryXml.ConstantDataTableReference.spec_errs b 0)
theorem Motorola.MotorolaBinaryXml.LrrpElement.exceptions (b : Bytes) : Errs [.EOFError] (fromBytes Motorola.MotorolaBinaryXml.LrrpElement.read b) := by rw [Motorola.MotorolaBinaryXml.LrrpElement.parses.fromBytes]; exact Errs.map _ (Motorola.MotorolaBinaryXml.LrrpElement.spec_errs b 0)
theorem Motorola.MotorolaBinaryXml.LrrpImmediateRequestNcdt.exceptions (b : Bytes) : Errs [.EOFError] (fromBytes Motorola.MotorolaBinaryXml.LrrpImmediateRequestNcdt.read b) := by
    unfold Motorola.MotorolaBinaryXml.LrrpImmediateRequestNcdt.read
    rw [(Motorola.MotorolaBinaryXml.LrrpElement.parses.map _).fromBytes]
    exact Errs.map _ (Errs.as _ (Motorola.MotorolaBinaryXml.LrrpElement.spec_errs b 0))
theorem Motorola.MotorolaBinaryXml.Opaque3byteValue.exceptions (b : Bytes) : Errs [.EOFError] (fromBytes Motorola.MotorolaBinaryXml.Opaque3byteValue.read b) := by rw [Motorola.MotorolaBinaryXml.Opaque3byteValue.fixed.fromBytes]; exact Errs.ite (Errs.ok _) (Errs.error (by decide))
theorem Motorola.MotorolaBinaryXml.Sintvar.exceptions (b : Bytes) : Errs [.EOFError] (fromBytes Motorola.MotorolaBinaryXml.Sintvar.read b) := by rw [Motorola.MotorolaBinaryXml.Sintvar.parses.fromBytes]; exact Errs.map _ (Motorola.MotorolaBinaryXml.Sintvar.spec_errs b 0)
theorem Motorola.MotorolaBinaryXml.Sfloatvar.exceptions (b : Bytes) : Errs [.EOFError] (fromBytes Motorola.MotorolaBinaryXml.Sfloatvar.read b) := by rw [Motorola.MotorolaBinaryXml.Sfloatvar.parses.fromBytes]; exact Errs.map _ (Motorola.MotorolaBinaryXml.Sfloatvar.spec_errs b 0)
theorem Motorola.MotorolaBinaryXml.Opaque5byteValue.exceptions (b : Bytes) : Errs [.EOFError] (fromBytes Motorola.MotorolaBinaryXml.Opaque5byteValue.read b) := by rw [Motorola.MotorolaBinaryXml.Opaque5byteValue.fixed.fromBytes]; exact Errs.ite (Errs.ok _) (Errs.error (by decide))
theorem Motorola.MotorolaBinaryXml.Ufloatvar.exceptions (b : Bytes) : Errs [.EOFError] (fromBytes Motorola.MotorolaBinaryXml.Ufloatvar.read b) := by rw [Motorola.MotorolaBinaryXml.Ufloatvar.parses.fromBytes]; exact Errs.map _ (Motorola.MotorolaBinaryXml.Ufloatvar.spec_errs b 0)
theorem Motorola.MotorolaBinaryXml.MbxmlDocument.exceptions (b : Bytes) : Errs [.EOFError] (fromBytes Motorola.MotorolaBinaryXml.MbxmlDocument.read b) := by rw [Motorola.MotorolaBinaryXml.MbxmlDocument.parses.fromBytes]; exact Errs.map _ (Motorola.MotorolaBinaryXml.MbxmlDocument.spec_errs b 0)
theorem Motorola.MotorolaBinaryXml.Opaque2byteValue.exceptions (b : Bytes) : Errs [.EOFError] (fromBytes Motorola.MotorolaBinaryXml.Opaque2byteValue.read b) := by rw [Motorola.MotorolaBinaryXml.Opaque2byteValue.fixed.fromBytes]; exact Errs.ite (Errs.ok _) (Errs.error (by decide))
theorem Motorola.MotorolaBinaryXml.Opaque4byteValue.exceptions (b : Bytes) : Errs [.EOFError] (fromBytes Motorola.MotorolaBinaryXml.Opaque4byteValue.read b) := by rw [Motorola.MotorolaBinaryXml.Opaque4byteValue.fixed.fromBytes]; exact Errs.ite (Errs.ok _) (Errs.error (by decide))
theorem Motorola.MotorolaBinaryXml.exceptions (b : Bytes) : Errs [.EOFError] (fromBytes Motorola.MotorolaBinaryXml.read b) := by
    rw [Motorola.MotorolaBinaryXml.parses.fromBytes]
    exact Errs.map _ (Motorola.MotorolaBinaryXml.spec_errs b 0 (Nat.zero_le _))
theorem Motorola.TextMessageProtocol.MessageHeaderBits.exceptions (b : Bytes) : Errs [.EOFError] (fromBytes Motorola.TextMessageProtocol.MessageHeaderBits.read b) := by rw [Motorola.TextMessageProtocol.MessageHeaderBits.fixed.fromBytes]; exact Errs.ite (Errs.ok _) (Errs.error (by decide))
theorem Motorola.TextMessageProtocol.TextMessageHeaderSequenceAndEncoding.exceptions (b : Bytes) : Errs [.EOFError] (fromBytes Motorola.TextMessageProtocol.TextMessageHeaderSequenceAndEncoding.read b) := textHeader_errs b
theorem Motorola.TextMessageProtocol.TmsServiceAvailabilityHeader.exceptions (b : Bytes) : Errs [.EOFError] (fromBytes Motorola.TextMessageProtocol.TmsServiceAvailabilityHeader.read b) := by rw [Motorola.TextMessageProtocol.TmsServiceAvailabilityHeader.fixed.fromBytes]; exact Errs.ite (Errs.ok _) (Errs.error (by decide))
theorem Motorola.TextMessageProtocol.TmsAcknowledgementHeaderSequenceNumber.exceptions (b : Bytes) : Errs [.EOFError] (fromBytes Motorola.TextMessageProtocol.TmsAcknowledgementHeaderSequenceNumber.read b) := by rw [Motorola.TextMessageProtocol.TmsAcknowledgementHeaderSequenceNumber.parses.fromBytes]; exact Errs.map _ (Motorola.TextMessageProtocol.TmsAcknowledgementHeaderSequenceNumber.spec_errs b 0)
theorem Motorola.TextMessageProtocol.TmsServiceAvailabilityAcknowledgement.exceptions (b : Bytes) : Errs [] (fromBytes Motorola.TextMessageProtocol.TmsServiceAvailabilityAcknowledgement.read b) := Errs.ok _
theorem Motorola.TextMessageProtocol.exceptions (b : Bytes) : Errs [.EOFError, .UnicodeDecodeError] (fromBytes Motorola.TextMessageProtocol.read b) := by rw [Motorola.TextMessageProtocol.parses.fromBytes]; exact Errs.map _ (Motorola.TextMessageProtocol.spec_errs b 0)

/-- Every class that can be decoded on its own, and the exceptions its `from_bytes` can raise. -/
def exceptionTable : List (Decoder × List ErrKind) := [
  (⟨"Etsi.DmrCsbk.NegativeAckResponseData", _, Etsi.DmrCsbk.NegativeAckResponseData.read⟩, [.EOFError]),
  (⟨"Etsi.DmrCsbk.ServiceOptions", _, Etsi.DmrCsbk.ServiceOptions.read⟩, [.EOFError]),
  (⟨"Etsi.DmrCsbk.UnitToUnitVoiceRequestData", _, Etsi.DmrCsbk.UnitToUnitVoiceRequestData.read⟩, [.EOFError]),
  (⟨"Etsi.DmrCsbk.PreambleData", _, Etsi.DmrCsbk.PreambleData.read⟩, [.EOFError]),
  (⟨"Etsi.DmrCsbk.ChannelTimingData", _, Etsi.DmrCsbk.ChannelTimingData.read⟩, [.EOFError]),
  (⟨"Etsi.DmrCsbk.BsOutboundActivationData", _, Etsi.DmrCsbk.BsOutboundActivationData.read⟩, [.EOFError]),
  (⟨"Etsi.DmrCsbk.UnitToUnitVoiceAnswerData", _, Etsi.DmrCsbk.UnitToUnitVoiceAnswerData.read⟩, [.EOFError]),
  (⟨"Etsi.DmrCsbk", _, Etsi.DmrCsbk.read⟩, [.EOFError]),
  (⟨"Etsi.DmrData.Rate1LastBlockUnconfirmed", _, Etsi.DmrData.Rate1LastBlockUnconfirmed.read⟩, [.EOFError]),
  (⟨"Etsi.DmrData.Rate12LastBlockConfirmed", _, Etsi.DmrData.Rate12LastBlockConfirmed.read⟩, [.EOFError]),
  (⟨"Etsi.DmrData.Rate12Confirmed", _, Etsi.DmrData.Rate12Confirmed.read⟩, [.EOFError]),
  (⟨"Etsi.DmrData.Rate34LastBlockUnconfirmed", _, Etsi.DmrData.Rate34LastBlockUnconfirmed.read⟩, [.EOFError]),
  (⟨"Etsi.DmrData.Rate1LastBlockConfirmed", _, Etsi.DmrData.Rate1LastBlockConfirmed.read⟩, [.EOFError]),
  (⟨"Etsi.DmrData.Rate1Unconfirmed", _, Etsi.DmrData.Rate1Unconfirmed.read⟩, [.EOFError]),
  (⟨"Etsi.DmrData.UdtLastBlock", _, Etsi.DmrData.UdtLastBlock.read⟩, [.EOFError]),
  (⟨"Etsi.DmrData.Rate34Confirmed", _, Etsi.DmrData.Rate34Confirmed.read⟩, [.EOFError]),
  (⟨"Etsi.DmrData.Rate34LastBlockConfirmed", _, Etsi.DmrData.Rate34LastBlockConfirmed.read⟩, [.EOFError]),
  (⟨"Etsi.DmrData.Rate34Unconfirmed", _, Etsi.DmrData.Rate34Unconfirmed.read⟩, [.EOFError]),
  (⟨"Etsi.DmrData.Rate12LastBlockUnconfirmed", _, Etsi.DmrData.Rate12LastBlockUnconfirmed.read⟩, [.EOFError]),
  (⟨"Etsi.DmrData.Rate1Confirmed", _, Etsi.DmrData.Rate1Confirmed.read⟩, [.EOFError]),
  (⟨"Etsi.DmrData.Rate12Unconfirmed", _, Etsi.DmrData.Rate12Unconfirmed.read⟩, [.EOFError]),
  (⟨"Etsi.DmrData", _, Etsi.DmrData.read⟩, []),
  (⟨"Etsi.DmrDataHeader.DataHeaderShortRaw", _, Etsi.DmrDataHeader.DataHeaderShortRaw.read⟩, [.EOFError]),
  (⟨"Etsi.DmrDataHeader.DataHeaderProprietary", _, Etsi.DmrDataHeader.DataHeaderProprietary.read⟩, [.EOFError]),
  (⟨"Etsi.DmrDataHeader.DataHeaderUndefined", _, Etsi.DmrDataHeader.DataHeaderUndefined.read⟩, []),
  (⟨"Etsi.DmrDataHeader.DataHeaderShortStatusPrecoded", _, Etsi.DmrDataHeader.DataHeaderShortStatusPrecoded.read⟩, [.EOFError]),
  (⟨"Etsi.DmrDataHeader.DataHeaderResponse", _, Etsi.DmrDataHeader.DataHeaderResponse.read⟩, [.EOFError]),
  (⟨"Etsi.DmrDataHeader.DataHeaderConfirmed", _, Etsi.DmrDataHeader.DataHeaderConfirmed.read⟩, [.EOFError]),
  (⟨"Etsi.DmrDataHeader.DataHeaderUnconfirmed", _, Etsi.DmrDataHeader.DataHeaderUnconfirmed.read⟩, [.EOFError]),
  (⟨"Etsi.DmrDataHeader.DataHeaderShortDefined", _, Etsi.DmrDataHeader.DataHeaderShortDefined.read⟩, [.EOFError]),
  (⟨"Etsi.DmrDataHeader.DataHeaderUdt", _, Etsi.DmrDataHeader.DataHeaderUdt.read⟩, [.EOFError]),
  (⟨"Etsi.DmrDataHeader", _, Etsi.DmrDataHeader.read⟩, [.EOFError]),
  (⟨"Etsi.DmrIpUdp.UdpIpv4CompressedHeader", _, Etsi.DmrIpUdp.UdpIpv4CompressedHeader.read⟩, [.EOFError]),
  (⟨"Etsi.DmrIpUdp", _, Etsi.DmrIpUdp.read⟩, []),
  (⟨"Etsi.FullLinkControl.GpsInfoLcPdu", _, Etsi.FullLinkControl.GpsInfoLcPdu.read⟩, [.EOFError]),
  (⟨"Etsi.FullLinkControl.GroupVoiceChannelUser", _, Etsi.FullLinkControl.GroupVoiceChannelUser.read⟩, [.EOFError]),
  (⟨"Etsi.FullLinkControl.UnitToUnitVoiceChannelUser", _, Etsi.FullLinkControl.UnitToUnitVoiceChannelUser.read⟩, [.EOFError]),
  (⟨"Etsi.FullLinkControl.TalkerAliasHeader", _, Etsi.FullLinkControl.TalkerAliasHeader.read⟩, [.EOFError]),
  (⟨"Etsi.FullLinkControl.TalkerAliasContinuation", _, Etsi.FullLinkControl.TalkerAliasContinuation.read⟩, [.EOFError]),
  (⟨"Etsi.FullLinkControl", _, Etsi.FullLinkControl.read⟩, [.EOFError]),
  (⟨"Homebrew.Homebrew2015.TypeMasterPing", _, Homebrew.Homebrew2015.TypeMasterPing.read⟩, [.EOFError, .ValidationNotEqualError]),
  (⟨"Homebrew.Homebrew2015.TypeRepeaterPong", _, Homebrew.Homebrew2015.TypeRepeaterPong.read⟩, [.EOFError, .ValidationNotEqualError]),
  (⟨"Homebrew.Homebrew2015.TypeRepeaterClosing", _, Homebrew.Homebrew2015.TypeRepeaterClosing.read⟩, [.EOFError, .ValidationNotEqualError]),
  (⟨"Homebrew.Homebrew2015.TypeRepeaterConfiguration", _, Homebrew.Homebrew2015.TypeRepeaterConfiguration.read⟩, [.EOFError, .UnicodeDecodeError]),
  (⟨"Homebrew.Homebrew2015.TypeRepeaterLoginResponse", _, Homebrew.Homebrew2015.TypeRepeaterLoginResponse.read⟩, [.EOFError]),
  (⟨"Homebrew.Homebrew2015.TypeRepeaterLoginRequest", _, Homebrew.Homebrew2015.TypeRepeaterLoginRequest.read⟩, [.EOFError]),
  (⟨"Homebrew.Homebrew2015.TypeMasterNotAccept", _, Homebrew.Homebrew2015.TypeMasterNotAccept.read⟩, [.EOFError, .ValidationNotEqualError]),
  (⟨"Homebrew.Homebrew2015.TypeMasterRepeaterAck", _, Homebrew.Homebrew2015.TypeMasterRepeaterAck.read⟩, [.EOFError, .ValidationNotEqualError]),
  (⟨"Homebrew.Homebrew2015.TypeMasterClosing", _, Homebrew.Homebrew2015.TypeMasterClosing.read⟩, [.EOFError, .ValidationNotEqualError]),
  (⟨"Homebrew.Homebrew2015.TypeDmrData", _, Homebrew.Homebrew2015.TypeDmrData.read⟩, [.EOFError]),
  (⟨"Homebrew.Homebrew2015.TypeRepeaterOptions", _, Homebrew.Homebrew2015.TypeRepeaterOptions.read⟩, [.EOFError, .UnicodeDecodeError]),
  (⟨"Homebrew.Homebrew2015", _, Homebrew.Homebrew2015.read⟩, [.EOFError, .ValidationNotEqualError, .UnicodeDecodeError]),
  (⟨"Homebrew.Mmdvm2020.TypeMasterPong", _, Homebrew.Mmdvm2020.TypeMasterPong.read⟩, [.EOFError, .ValidationNotEqualError]),
  (⟨"Homebrew.Mmdvm2020.TypeRadioPosition", _, Homebrew.Mmdvm2020.TypeRadioPosition.read⟩, [.EOFError]),
  (⟨"Homebrew.Mmdvm2020.TypeTalkerAlias", _, Homebrew.Mmdvm2020.TypeTalkerAlias.read⟩, [.EOFError, .UnicodeDecodeError]),
  (⟨"Homebrew.Mmdvm2020.TypeRepeaterClosing", _, Homebrew.Mmdvm2020.TypeRepeaterClosing.read⟩, [.EOFError, .ValidationNotEqualError]),
  (⟨"Homebrew.Mmdvm2020.TypeRepeaterConfiguration", _, Homebrew.Mmdvm2020.TypeRepeaterConfiguration.read⟩, [.EOFError, .UnicodeDecodeError]),
  (⟨"Homebrew.Mmdvm2020.TypeRepeaterLoginResponse", _, Homebrew.Mmdvm2020.TypeRepeaterLoginResponse.read⟩, [.EOFError]),
  (⟨"Homebrew.Mmdvm2020.TypeRepeaterLoginRequest", _, Homebrew.Mmdvm2020.TypeRepeaterLoginRequest.read⟩, [.EOFError]),
  (⟨"Homebrew.Mmdvm2020.TypeMasterNotAccept", _, Homebrew.Mmdvm2020.TypeMasterNotAccept.read⟩, [.EOFError, .ValidationNotEqualError]),
  (⟨"Homebrew.Mmdvm2020.TypeUnknown", _, Homebrew.Mmdvm2020.TypeUnknown.read⟩, []),
  (⟨"Homebrew.Mmdvm2020.TypeMasterRepeaterAck", _, Homebrew.Mmdvm2020.TypeMasterRepeaterAck.read⟩, [.EOFError, .ValidationNotEqualError]),
  (⟨"Homebrew.Mmdvm2020.TypeMasterClosing", _, Homebrew.Mmdvm2020.TypeMasterClosing.read⟩, [.EOFError, .ValidationNotEqualError]),
  (⟨"Homebrew.Mmdvm2020.TypeDmrData", _, Homebrew.Mmdvm2020.TypeDmrData.read⟩, [.EOFError]),
  (⟨"Homebrew.Mmdvm2020.TypeRepeaterBeacon", _, Homebrew.Mmdvm2020.TypeRepeaterBeacon.read⟩, []),
  (⟨"Homebrew.Mmdvm2020.TypeRepeaterOptions", _, Homebrew.Mmdvm2020.TypeRepeaterOptions.read⟩, [.EOFError, .UnicodeDecodeError]),
  (⟨"Homebrew.Mmdvm2020.TypeRepeaterPing", _, Homebrew.Mmdvm2020.TypeRepeaterPing.read⟩, [.EOFError, .ValidationNotEqualError]),
  (⟨"Homebrew.Mmdvm2020", _, Homebrew.Mmdvm2020.read⟩, [.EOFError, .ValidationNotEqualError, .UnicodeDecodeError]),
  (⟨"Hytera.DataDeliveryStates", _, Hytera.DataDeliveryStates.read⟩, [.EOFError]),
  (⟨"Hytera.DataTransmitProtocol.LastDataSlice", _, Hytera.DataTransmitProtocol.LastDataSlice.read⟩, [.EOFError]),
  (⟨"Hytera.DataTransmitProtocol.DataSliceAnswer", _, Hytera.DataTransmitProtocol.DataSliceAnswer.read⟩, [.EOFError]),
  (⟨"Hytera.DataTransmitProtocol.LastDataSliceAnswer", _, Hytera.DataTransmitProtocol.LastDataSliceAnswer.read⟩, [.EOFError]),
  (⟨"Hytera.DataTransmitProtocol.DtpAnswer", _, Hytera.DataTransmitProtocol.DtpAnswer.read⟩, [.EOFError]),
  (⟨"Hytera.DataTransmitProtocol", _, Hytera.DataTransmitProtocol.read⟩, [.EOFError, .UnicodeDecodeError, .ValueError]),
  (⟨"Hytera.Datetimestring", _, Hytera.Datetimestring.read⟩, [.EOFError, .UnicodeDecodeError]),
  (⟨"Hytera.Gpsdata", _, Hytera.Gpsdata.read⟩, [.EOFError]),
  (⟨"Hytera.HyteraDmrApplicationProtocol.UndefinedProtocol", _, Hytera.HyteraDmrApplicationProtocol.UndefinedProtocol.read⟩, []),
  (⟨"Hytera.HyteraDmrApplicationProtocol", _, Hytera.HyteraDmrApplicationProtocol.read⟩, [.EOFError, .ValidationNotEqualError, .UnicodeDecodeError, .ValueError]),
  (⟨"Hytera.HyteraRadioNetworkProtocol", _, Hytera.HyteraRadioNetworkProtocol.read⟩, [.EOFError, .ValidationNotEqualError, .UnicodeDecodeError, .ValueError]),
  (⟨"Hytera.HyteraSimpleTransportReliabilityProtocol.Option", _, Hytera.HyteraSimpleTransportReliabilityProtocol.Option.read⟩, [.EOFError]),
  (⟨"Hytera.HyteraSimpleTransportReliabilityProtocol", _, Hytera.HyteraSimpleTransportReliabilityProtocol.read⟩, [.EOFError, .ValidationNotEqualError, .UnicodeDecodeError, .ValueError]),
  (⟨"Hytera.Intervalstring", _, Hytera.Intervalstring.read⟩, [.EOFError, .UnicodeDecodeError]),
  (⟨"Hytera.IpSiteConnectHeartbeat.Keepalive", _, Hytera.IpSiteConnectHeartbeat.Keepalive.read⟩, [.EOFError, .ValidationNotEqualError]),
  (⟨"Hytera.IpSiteConnectHeartbeat.PingPong", _, Hytera.IpSiteConnectHeartbeat.PingPong.read⟩, [.EOFError, .ValidationNotEqualError]),
  (⟨"Hytera.IpSiteConnectHeartbeat.Unknown", _, Hytera.IpSiteConnectHeartbeat.Unknown.read⟩, []),
  (⟨"Hytera.IpSiteConnectHeartbeat", _, Hytera.IpSiteConnectHeartbeat.read⟩, [.ValidationNotEqualError]),
  (⟨"Hytera.IpSiteConnectProtocol", _, Hytera.IpSiteConnectProtocol.read⟩, [.EOFError, .ValidationNotEqualError]),
  (⟨"Hytera.LocationProtocol.TriggeredReportStopAnswer", _, Hytera.LocationProtocol.TriggeredReportStopAnswer.read⟩, [.EOFError]),
  (⟨"Hytera.LocationProtocol.ConditionReportRequest", _, Hytera.LocationProtocol.ConditionReportRequest.read⟩, [.EOFError, .UnicodeDecodeError]),
  (⟨"Hytera.LocationProtocol.QuickGpsPayload", _, Hytera.LocationProtocol.QuickGpsPayload.read⟩, [.EOFError, .UnicodeDecodeError]),
  (⟨"Hytera.LocationProtocol.ConditionQuickGpsRequest", _, Hytera.LocationProtocol.ConditionQuickGpsRequest.read⟩, [.EOFError, .UnicodeDecodeError]),
  (⟨"Hytera.LocationProtocol.ConditionReport", _, Hytera.LocationProtocol.ConditionReport.read⟩, [.EOFError]),
  (⟨"Hytera.LocationProtocol.EmergencyReport", _, Hytera.LocationProtocol.EmergencyReport.read⟩, [.EOFError]),
  (⟨"Hytera.LocationProtocol.TriggeredReportAnswer", _, Hytera.LocationProtocol.TriggeredReportAnswer.read⟩, [.EOFError]),
  (⟨"Hytera.LocationProtocol.StandardAnswerWithRssi", _, Hytera.LocationProtocol.StandardAnswerWithRssi.read⟩, [.EOFError]),
  (⟨"Hytera.LocationProtocol.StandardRequest", _, Hytera.LocationProtocol.StandardRequest.read⟩, [.EOFError]),
  (⟨"Hytera.LocationProtocol.TriggeredReportRequest", _, Hytera.LocationProtocol.TriggeredReportRequest.read⟩, [.EOFError, .UnicodeDecodeError]),
  (⟨"Hytera.LocationProtocol.StandardAnswer", _, Hytera.LocationProtocol.StandardAnswer.read⟩, [.EOFError]),
  (⟨"Hytera.LocationProtocol.ConditionReportAnswer", _, Hytera.LocationProtocol.ConditionReportAnswer.read⟩, [.EOFError]),
  (⟨"Hytera.LocationProtocol.EmergencyReportStopRequest", _, Hytera.LocationProtocol.EmergencyReportStopRequest.read⟩, [.EOFError]),
  (⟨"Hytera.LocationProtocol.ConditionQuickGpsAnswer", _, Hytera.LocationProtocol.ConditionQuickGpsAnswer.read⟩, [.EOFError]),
  (⟨"Hytera.LocationProtocol.TriggeredReport", _, Hytera.LocationProtocol.TriggeredReport.read⟩, [.EOFError, .UnicodeDecodeError]),
  (⟨"Hytera.LocationProtocol.ConditionReportWithRssi", _, Hytera.LocationProtocol.ConditionReportWithRssi.read⟩, [.EOFError]),
  (⟨"Hytera.LocationProtocol.EmergencyReportStopAnswer", _, Hytera.LocationProtocol.EmergencyReportStopAnswer.read⟩, [.EOFError]),
  (⟨"Hytera.LocationProtocol.TriggeredReportStopRequest", _, Hytera.LocationProtocol.TriggeredReportStopRequest.read⟩, [.EOFError]),
  (⟨"Hytera.LocationProtocol", _, Hytera.LocationProtocol.read⟩, [.EOFError, .UnicodeDecodeError]),
  (⟨"Hytera.RadioControlProtocol.BroadcastStatusConfigurationReply", _, Hytera.RadioControlProtocol.BroadcastStatusConfigurationReply.read⟩, [.EOFError]),
  (⟨"Hytera.RadioControlProtocol.BroadcastConfiguration", _, Hytera.RadioControlProtocol.BroadcastConfiguration.read⟩, [.EOFError]),
  (⟨"Hytera.RadioControlProtocol.BroadcastStatusConfigurationRequest", _, Hytera.RadioControlProtocol.BroadcastStatusConfigurationRequest.read⟩, [.EOFError]),
  (⟨"Hytera.RadioControlProtocol.CallRequest", _, Hytera.RadioControlProtocol.CallRequest.read⟩, [.EOFError]),
  (⟨"Hytera.RadioControlProtocol.RemoveRadioReply", _, Hytera.RadioControlProtocol.RemoveRadioReply.read⟩, [.EOFError]),
  (⟨"Hytera.RadioControlProtocol.RemoveRadioRequest", _, Hytera.RadioControlProtocol.RemoveRadioRequest.read⟩, []),
  (⟨"Hytera.RadioControlProtocol.CallReply", _, Hytera.RadioControlProtocol.CallReply.read⟩, [.EOFError]),
  (⟨"Hytera.RadioControlProtocol", _, Hytera.RadioControlProtocol.read⟩, [.EOFError, .UnicodeDecodeError]),
  (⟨"Hytera.RadioId", _, Hytera.RadioId.read⟩, [.EOFError]),
  (⟨"Hytera.RadioIp", _, Hytera.RadioIp.read⟩, [.EOFError]),
  (⟨"Hytera.RadioRegistrationService", _, Hytera.RadioRegistrationService.read⟩, [.EOFError, .ValidationNotEqualError]),
  (⟨"Hytera.RealTimeTransportProtocol.FixedHeader", _, Hytera.RealTimeTransportProtocol.FixedHeader.read⟩, [.EOFError, .ValidationNotEqualError]),
  (⟨"Hytera.RealTimeTransportProtocol.HeaderExtension", _, Hytera.RealTimeTransportProtocol.HeaderExtension.read⟩, [.EOFError]),
  (⟨"Hytera.RealTimeTransportProtocol", _, Hytera.RealTimeTransportProtocol.read⟩, [.EOFError, .ValidationNotEqualError, .ValueError]),
  (⟨"Hytera.TelemetryProtocol.StandardStatusReport", _, Hytera.TelemetryProtocol.StandardStatusReport.read⟩, [.EOFError]),
  (⟨"Hytera.TelemetryProtocol.VioExtendedStatus", _, Hytera.TelemetryProtocol.VioExtendedStatus.read⟩, [.EOFError, .UnicodeDecodeError]),
  (⟨"Hytera.TelemetryProtocol.RemoteControlAnswer", _, Hytera.TelemetryProtocol.RemoteControlAnswer.read⟩, [.EOFError]),
  (⟨"Hytera.TelemetryProtocol.RemoteControlRequest", _, Hytera.TelemetryProtocol.RemoteControlRequest.read⟩, [.EOFError]),
  (⟨"Hytera.TelemetryProtocol.ExtendedStatusReport", _, Hytera.TelemetryProtocol.ExtendedStatusReport.read⟩, [.EOFError, .UnicodeDecodeError]),
  (⟨"Hytera.TelemetryProtocol.StandardStatusRequest", _, Hytera.TelemetryProtocol.StandardStatusRequest.read⟩, [.EOFError]),
  (⟨"Hytera.TelemetryProtocol", _, Hytera.TelemetryProtocol.read⟩, [.EOFError, .UnicodeDecodeError]),
  (⟨"Hytera.TextMessageProtocol", _, Hytera.TextMessageProtocol.read⟩, [.EOFError, .UnicodeDecodeError, .ValueError]),
  (⟨"Motorola.AutomaticRegistrationService.MessageHeaderBits", _, Motorola.AutomaticRegistrationService.MessageHeaderBits.read⟩, [.EOFError]),
  (⟨"Motorola.AutomaticRegistrationService.DeviceRegistrationAcknowledgementHeader", _, Motorola.AutomaticRegistrationService.DeviceRegistrationAcknowledgementHeader.read⟩, [.EOFError]),
  (⟨"Motorola.AutomaticRegistrationService.DeviceRegistrationAcknowledgementFailureReason", _, Motorola.AutomaticRegistrationService.DeviceRegistrationAcknowledgementFailureReason.read⟩, [.EOFError]),
  (⟨"Motorola.AutomaticRegistrationService.DeviceRegistrationMessageHeader", _, Motorola.AutomaticRegistrationService.DeviceRegistrationMessageHeader.read⟩, [.EOFError]),
  (⟨"Motorola.AutomaticRegistrationService.DeviceDeregistrationMessage", _, Motorola.AutomaticRegistrationService.DeviceDeregistrationMessage.read⟩, []),
  (⟨"Motorola.AutomaticRegistrationService.ArsQueryMessage", _, Motorola.AutomaticRegistrationService.ArsQueryMessage.read⟩, []),
  (⟨"Motorola.AutomaticRegistrationService", _, Motorola.AutomaticRegistrationService.read⟩, [.EOFError]),
  (⟨"Motorola.MotorolaBinaryXml.OpaqueElementValue", _, Motorola.MotorolaBinaryXml.OpaqueElementValue.read⟩, [.EOFError]),
  (⟨"Motorola.MotorolaBinaryXml.Opaque1byteValue", _, Motorola.MotorolaBinaryXml.Opaque1byteValue.read⟩, [.EOFError]),
  (⟨"Motorola.MotorolaBinaryXml.Uintvar", _, Motorola.MotorolaBinaryXml.Uintvar.read⟩, [.EOFError]),
  (⟨"Motorola.MotorolaBinaryXml.ConstantDataTableReference", _, Motorola.MotorolaBinaryXml.ConstantDataTableReference.read⟩, [.EOFError]),
  (⟨"Motorola.MotorolaBinaryXml.LrrpElement", _, Motorola.MotorolaBinaryXml.LrrpElement.read⟩, [.EOFError]),
  (⟨"Motorola.MotorolaBinaryXml.LrrpImmediateRequestNcdt", _, Motorola.MotorolaBinaryXml.LrrpImmediateRequestNcdt.read⟩, [.EOFError]),
  (⟨"Motorola.MotorolaBinaryXml.Opaque3byteValue", _, Motorola.MotorolaBinaryXml.Opaque3byteValue.read⟩, [.EOFError]),
  (⟨"Motorola.MotorolaBinaryXml.Sintvar", _, Motorola.MotorolaBinaryXml.Sintvar.read⟩, [.EOFError]),
  (⟨"Motorola.MotorolaBinaryXml.Sfloatvar", _, Motorola.MotorolaBinaryXml.Sfloatvar.read⟩, [.EOFError]),
  (⟨"Motorola.MotorolaBinaryXml.Opaque5byteValue", _, Motorola.MotorolaBinaryXml.Opaque5byteValue.read⟩, [.EOFError]),
  (⟨"Motorola.MotorolaBinaryXml.Ufloatvar", _, Motorola.MotorolaBinaryXml.Ufloatvar.read⟩, [.EOFError]),
  (⟨"Motorola.MotorolaBinaryXml.MbxmlDocument", _, Motorola.MotorolaBinaryXml.MbxmlDocument.read⟩, [.EOFError]),
  (⟨"Motorola.MotorolaBinaryXml.Opaque2byteValue", _, Motorola.MotorolaBinaryXml.Opaque2byteValue.read⟩, [.EOFError]),
  (⟨"Motorola.MotorolaBinaryXml.Opaque4byteValue", _, Motorola.MotorolaBinaryXml.Opaque4byteValue.read⟩, [.EOFError]),
  (⟨"Motorola.MotorolaBinaryXml", _, Motorola.MotorolaBinaryXml.read⟩, [.EOFError]),
  (⟨"Motorola.TextMessageProtocol.MessageHeaderBits", _, Motorola.TextMessageProtocol.MessageHeaderBits.read⟩, [.EOFError]),
  (⟨"Motorola.TextMessageProtocol.TextMessageHeaderSequenceAndEncoding", _, Motorola.TextMessageProtocol.TextMessageHeaderSequenceAndEncoding.read⟩, [.EOFError]),
  (⟨"Motorola.TextMessageProtocol.TmsServiceAvailabilityHeader", _, Motorola.TextMessageProtocol.TmsServiceAvailabilityHeader.read⟩, [.EOFError]),
  (⟨"Motorola.TextMessageProtocol.TmsAcknowledgementHeaderSequenceNumber", _, Motorola.TextMessageProtocol.TmsAcknowledgementHeaderSequenceNumber.read⟩, [.EOFError]),
  (⟨"Motorola.TextMessageProtocol.TmsServiceAvailabilityAcknowledgement", _, Motorola.TextMessageProtocol.TmsServiceAvailabilityAcknowledgement.read⟩, []),
  (⟨"Motorola.TextMessageProtocol", _, Motorola.TextMessageProtocol.read⟩, [.EOFError, .UnicodeDecodeError])]

theorem exceptionTable_sound : ∀ p ∈ exceptionTable, ∀ b, Errs p.2 (fromBytes p.1.read b) := by
  unfold exceptionTable
  refine List.forall_mem_cons.mpr ⟨Etsi.DmrCsbk.NegativeAckResponseData.exceptions, ?_⟩
  refine List.forall_mem_cons.mpr ⟨Etsi.DmrCsbk.ServiceOptions.exceptions, ?_⟩
  refine List.forall_mem_cons.mpr ⟨Etsi.DmrCsbk.UnitToUnitVoiceRequestData.exceptions, ?_⟩
  refine List.forall_mem_cons.mpr ⟨Etsi.DmrCsbk.PreambleData.exceptions, ?_⟩
  refine List.forall_mem_cons.mpr ⟨Etsi.DmrCsbk.ChannelTimingData.exceptions, ?_⟩
  refine List.forall_mem_cons.mpr ⟨Etsi.DmrCsbk.BsOutboundActivationData.exceptions, ?_⟩
  refine List.forall_mem_cons.mpr ⟨Etsi.DmrCsbk.UnitToUnitVoiceAnswerData.exceptions, ?_⟩
  refine List.forall_mem_cons.mpr ⟨Etsi.DmrCsbk.exceptions, ?_⟩
  refine List.forall_mem_cons.mpr ⟨Etsi.DmrData.Rate1LastBlockUnconfirmed.exceptions, ?_⟩
  refine List.forall_mem_cons.mpr ⟨Etsi.DmrData.Rate12LastBlockConfirmed.exceptions, ?_⟩
  refine List.forall_mem_cons.mpr ⟨Etsi.DmrData.Rate12Confirmed.exceptions, ?_⟩
  refine List.forall_mem_cons.mpr ⟨Etsi.DmrData.Rate34LastBlockUnconfirmed.exceptions, ?_⟩
  refine List.forall_mem_cons.mpr ⟨Etsi.DmrData.Rate1LastBlockConfirmed.exceptions, ?_⟩
  refine List.forall_mem_cons.mpr ⟨Etsi.DmrData.Rate1Unconfirmed.exceptions, ?_⟩
  refine List.forall_mem_cons.mpr ⟨Etsi.DmrData.UdtLastBlock.exceptions, ?_⟩
  refine List.forall_mem_cons.mpr ⟨Etsi.DmrData.Rate34Confirmed.exceptions, ?_⟩
  refine List.forall_mem_cons.mpr ⟨Etsi.DmrData.Rate34LastBlockConfirmed.exceptions, ?_⟩
  refine List.forall_mem_cons.mpr ⟨Etsi.DmrData.Rate34Unconfirmed.exceptions, ?_⟩
  refine List.forall_mem_cons.mpr ⟨Etsi.DmrData.Rate12LastBlockUnconfirmed.exceptions, ?_⟩
  refine List.forall_mem_cons.mpr ⟨Etsi.DmrData.Rate1Confirmed.exceptions, ?_⟩
  refine List.forall_mem_cons.mpr ⟨Etsi.DmrData.Rate12Unconfirmed.exceptions, ?_⟩
  refine List.forall_mem_cons.mpr ⟨Etsi.DmrData.exceptions, ?_⟩
  refine List.forall_mem_cons.mpr ⟨Etsi.DmrDataHeader.DataHeaderShortRaw.exceptions, ?_⟩
  refine List.forall_mem_cons.mpr ⟨Etsi.DmrDataHeader.DataHeaderProprietary.exceptions, ?_⟩
  refine List.forall_mem_cons.mpr ⟨Etsi.DmrDataHeader.DataHeaderUndefined.exceptions, ?_⟩
  refine List.forall_mem_cons.mpr ⟨Etsi.DmrDataHeader.DataHeaderShortStatusPrecoded.exceptions, ?_⟩
  refine List.forall_mem_cons.mpr ⟨Etsi.DmrDataHeader.DataHeaderResponse.exceptions, ?_⟩
  refine List.forall_mem_cons.mpr ⟨Etsi.DmrDataHeader.DataHeaderConfirmed.exceptions, ?_⟩
  refine List.forall_mem_cons.mpr ⟨Etsi.DmrDataHeader.DataHeaderUnconfirmed.exceptions, ?_⟩
  refine List.forall_mem_cons.mpr ⟨Etsi.DmrDataHeader.DataHeaderShortDefined.exceptions, ?_⟩
  refine List.forall_mem_cons.mpr ⟨Etsi.DmrDataHeader.DataHeaderUdt.exceptions, ?_⟩
  refine List.forall_mem_cons.mpr ⟨Etsi.DmrDataHeader.exceptions, ?_⟩
  refine List.forall_mem_cons.mpr ⟨Etsi.DmrIpUdp.UdpIpv4CompressedHeader.exceptions, ?_⟩
  refine List.forall_mem_cons.mpr ⟨Etsi.DmrIpUdp.exceptions, ?_⟩
  refine List.forall_mem_cons.mpr ⟨Etsi.FullLinkControl.GpsInfoLcPdu.exceptions, ?_⟩
  refine List.forall_mem_cons.mpr ⟨Etsi.FullLinkControl.GroupVoiceChannelUser.exceptions, ?_⟩
  refine List.forall_mem_cons.mpr ⟨Etsi.FullLinkControl.UnitToUnitVoiceChannelUser.exceptions, ?_⟩
  refine List.forall_mem_cons.mpr ⟨Etsi.FullLinkControl.TalkerAliasHeader.exceptions, ?_⟩
  refine List.forall_mem_cons.mpr ⟨Etsi.FullLinkControl.TalkerAliasContinuation.exceptions, ?_⟩
  refine List.forall_mem_cons.mpr ⟨Etsi.FullLinkControl.exceptions, ?_⟩
  refine List.forall_mem_cons.mpr ⟨Homebrew.Homebrew2015.TypeMasterPing.exceptions, ?_⟩
  refine List.forall_mem_cons.mpr ⟨Homebrew.Homebrew2015.TypeRepeaterPong.exceptions, ?_⟩
  refine List.forall_mem_cons.mpr ⟨Homebrew.Homebrew2015.TypeRepeaterClosing.exceptions, ?_⟩
  refine List.forall_mem_cons.mpr ⟨Homebrew.Homebrew2015.TypeRepeaterConfiguration.exceptions, ?_⟩
  refine List.forall_mem_cons.mpr ⟨Homebrew.Homebrew2015.TypeRepeaterLoginResponse.exceptions, ?_⟩
  refine List.forall_mem_cons.mpr ⟨Homebrew.Homebrew2015.TypeRepeaterLoginRequest.exceptions, ?_⟩
  refine List.forall_mem_cons.mpr ⟨Homebrew.Homebrew2015.TypeMasterNotAccept.exceptions, ?_⟩
  refine List.forall_mem_cons.mpr ⟨Homebrew.Homebrew2015.TypeMasterRepeaterAck.exceptions, ?_⟩
  refine List.forall_mem_cons.mpr ⟨Homebrew.Homebrew2015.TypeMasterClosing.exceptions, ?_⟩
  refine List.forall_mem_cons.mpr ⟨Homebrew.Homebrew2015.TypeDmrData.exceptions, ?_⟩
  refine List.forall_mem_cons.mpr ⟨Homebrew.Homebrew2015.TypeRepeaterOptions.exceptions, ?_⟩
  refine List.forall_mem_cons.mpr ⟨Homebrew.Homebrew2015.exceptions, ?_⟩
  refine List.forall_mem_cons.mpr ⟨Homebrew.Mmdvm2020.TypeMasterPong.exceptions, ?_⟩
  refine List.forall_mem_cons.mpr ⟨Homebrew.Mmdvm2020.TypeRadioPosition.exceptions, ?_⟩
  refine List.forall_mem_cons.mpr ⟨Homebrew.Mmdvm2020.TypeTalkerAlias.exceptions, ?_⟩
  refine List.forall_mem_cons.mpr ⟨Homebrew.Mmdvm2020.TypeRepeaterClosing.exceptions, ?_⟩
  refine List.forall_mem_cons.mpr ⟨Homebrew.Mmdvm2020.TypeRepeaterConfiguration.exceptions, ?_⟩
  refine List.forall_mem_cons.mpr ⟨Homebrew.Mmdvm2020.TypeRepeaterLoginResponse.exceptions, ?_⟩
  refine List.forall_mem_cons.mpr ⟨Homebrew.Mmdvm2020.TypeRepeaterLoginRequest.exceptions, ?_⟩
  refine List.forall_mem_cons.mpr ⟨Homebrew.Mmdvm2020.TypeMasterNotAccept.exceptions, ?_⟩
  refine List.forall_mem_cons.mpr ⟨Homebrew.Mmdvm2020.TypeUnknown.exceptions, ?_⟩
  refine List.forall_mem_cons.mpr ⟨Homebrew.Mmdvm2020.TypeMasterRepeaterAck.exceptions, ?_⟩
  refine List.forall_mem_cons.mpr ⟨Homebrew.Mmdvm2020.TypeMasterClosing.exceptions, ?_⟩
  refine List.forall_mem_cons.mpr ⟨Homebrew.Mmdvm2020.TypeDmrData.exceptions, ?_⟩
  refine List.forall_mem_cons.mpr ⟨Homebrew.Mmdvm2020.TypeRepeaterBeacon.exceptions, ?_⟩
  refine List.forall_mem_cons.mpr ⟨Homebrew.Mmdvm2020.TypeRepeaterOptions.exceptions, ?_⟩
  refine List.forall_mem_cons.mpr ⟨Homebrew.Mmdvm2020.TypeRepeaterPing.exceptions, ?_⟩
  refine List.forall_mem_cons.mpr ⟨Homebrew.Mmdvm2020.exceptions, ?_⟩
  refine List.forall_mem_cons.mpr ⟨Hytera.DataDeliveryStates.exceptions, ?_⟩
  refine List.forall_mem_cons.mpr ⟨Hytera.DataTransmitProtocol.LastDataSlice.exceptions, ?_⟩
  refine List.forall_mem_cons.mpr ⟨Hytera.DataTransmitProtocol.DataSliceAnswer.exceptions, ?_⟩
  refine List.forall_mem_cons.mpr ⟨Hytera.DataTransmitProtocol.LastDataSliceAnswer.exceptions, ?_⟩
  refine List.forall_mem_cons.mpr ⟨Hytera.DataTransmitProtocol.DtpAnswer.exceptions, ?_⟩
  refine List.forall_mem_cons.mpr ⟨Hytera.DataTransmitProtocol.exceptions, ?_⟩
  refine List.forall_mem_cons.mpr ⟨Hytera.Datetimestring.exceptions, ?_⟩
  refine List.forall_mem_cons.mpr ⟨Hytera.Gpsdata.exceptions, ?_⟩
  refine List.forall_mem_cons.mpr ⟨Hytera.HyteraDmrApplicationProtocol.UndefinedProtocol.exceptions, ?_⟩
  refine List.forall_mem_cons.mpr ⟨Hytera.HyteraDmrApplicationProtocol.exceptions, ?_⟩
  refine List.forall_mem_cons.mpr ⟨Hytera.HyteraRadioNetworkProtocol.exceptions, ?_⟩
  refine List.forall_mem_cons.mpr ⟨Hytera.HyteraSimpleTransportReliabilityProtocol.Option.exceptions, ?_⟩
  refine List.forall_mem_cons.mpr ⟨Hytera.HyteraSimpleTransportReliabilityProtocol.exceptions, ?_⟩
  refine List.forall_mem_cons.mpr ⟨Hytera.Intervalstring.exceptions, ?_⟩
  refine List.forall_mem_cons.mpr ⟨Hytera.IpSiteConnectHeartbeat.Keepalive.exceptions, ?_⟩
  refine List.forall_mem_cons.mpr ⟨Hytera.IpSiteConnectHeartbeat.PingPong.exceptions, ?_⟩
  refine List.forall_mem_cons.mpr ⟨Hytera.IpSiteConnectHeartbeat.Unknown.exceptions, ?_⟩
  refine List.forall_mem_cons.mpr ⟨Hytera.IpSiteConnectHeartbeat.exceptions, ?_⟩
  refine List.forall_mem_cons.mpr ⟨Hytera.IpSiteConnectProtocol.exceptions, ?_⟩
  refine List.forall_mem_cons.mpr ⟨Hytera.LocationProtocol.TriggeredReportStopAnswer.exceptions, ?_⟩
  refine List.forall_mem_cons.mpr ⟨Hytera.LocationProtocol.ConditionReportRequest.exceptions, ?_⟩
  refine List.forall_mem_cons.mpr ⟨Hytera.LocationProtocol.QuickGpsPayload.exceptions, ?_⟩
  refine List.forall_mem_cons.mpr ⟨Hytera.LocationProtocol.ConditionQuickGpsRequest.exceptions, ?_⟩
  refine List.forall_mem_cons.mpr ⟨Hytera.LocationProtocol.ConditionReport.exceptions, ?_⟩
  refine List.forall_mem_cons.mpr ⟨Hytera.LocationProtocol.EmergencyReport.exceptions, ?_⟩
  refine List.forall_mem_cons.mpr ⟨Hytera.LocationProtocol.TriggeredReportAnswer.exceptions, ?_⟩
  refine List.forall_mem_cons.mpr ⟨Hytera.LocationProtocol.StandardAnswerWithRssi.exceptions, ?_⟩
  refine List.forall_mem_cons.mpr ⟨Hytera.LocationProtocol.StandardRequest.exceptions, ?_⟩
  refine List.forall_mem_cons.mpr ⟨Hytera.LocationProtocol.TriggeredReportRequest.exceptions, ?_⟩
  refine List.forall_mem_cons.mpr ⟨Hytera.LocationProtocol.StandardAnswer.exceptions, ?_⟩
  refine List.forall_mem_cons.mpr ⟨Hytera.LocationProtocol.ConditionReportAnswer.exceptions, ?_⟩
  refine List.forall_mem_cons.mpr ⟨Hytera.LocationProtocol.EmergencyReportStopRequest.exceptions, ?_⟩
  refine List.forall_mem_cons.mpr ⟨Hytera.LocationProtocol.ConditionQuickGpsAnswer.exceptions, ?_⟩
  refine List.forall_mem_cons.mpr ⟨Hytera.LocationProtocol.TriggeredReport.exceptions, ?_⟩
  refine List.forall_mem_cons.mpr ⟨Hytera.LocationProtocol.ConditionReportWithRssi.exceptions, ?_⟩
  refine List.forall_mem_cons.mpr ⟨Hytera.LocationProtocol.EmergencyReportStopAnswer.exceptions, ?_⟩
  refine List.forall_mem_cons.mpr ⟨Hytera.LocationProtocol.TriggeredReportStopRequest.exceptions, ?_⟩
  refine List.forall_mem_cons.mpr ⟨Hytera.LocationProtocol.exceptions, ?_⟩
  refine List.forall_mem_cons.mpr ⟨Hytera.RadioControlProtocol.BroadcastStatusConfigurationReply.exceptions, ?_⟩
  refine List.forall_mem_cons.mpr ⟨Hytera.RadioControlProtocol.BroadcastConfiguration.exceptions, ?_⟩
  refine List.forall_mem_cons.mpr ⟨Hytera.RadioControlProtocol.BroadcastStatusConfigurationRequest.exceptions, ?_⟩
  refine List.forall_mem_cons.mpr ⟨Hytera.RadioControlProtocol.CallRequest.exceptions, ?_⟩
  refine List.forall_mem_cons.mpr ⟨Hytera.RadioControlProtocol.RemoveRadioReply.exceptions, ?_⟩
  refine List.forall_mem_cons.mpr ⟨Hytera.RadioControlProtocol.RemoveRadioRequest.exceptions, ?_⟩
  refine List.forall_mem_cons.mpr ⟨Hytera.RadioControlProtocol.CallReply.exceptions, ?_⟩
  refine List.forall_mem_cons.mpr ⟨Hytera.RadioControlProtocol.exceptions, ?_⟩
  refine List.forall_mem_cons.mpr ⟨Hytera.RadioId.exceptions, ?_⟩
  refine List.forall_mem_cons.mpr ⟨Hytera.RadioIp.exceptions, ?_⟩
  refine List.forall_mem_cons.mpr ⟨Hytera.RadioRegistrationService.exceptions, ?_⟩
  refine List.forall_mem_cons.mpr ⟨Hytera.RealTimeTransportProtocol.FixedHeader.exceptions, ?_⟩
  refine List.forall_mem_cons.mpr ⟨Hytera.RealTimeTransportProtocol.HeaderExtension.exceptions, ?_⟩
  refine List.forall_mem_cons.mpr ⟨Hytera.RealTimeTransportProtocol.exceptions, ?_⟩
  refine List.forall_mem_cons.mpr ⟨Hytera.TelemetryProtocol.StandardStatusReport.exceptions, ?_⟩
  refine List.forall_mem_cons.mpr ⟨Hytera.TelemetryProtocol.VioExtendedStatus.exceptions, ?_⟩
  refine List.forall_mem_cons.mpr ⟨Hytera.TelemetryProtocol.RemoteControlAnswer.exceptions, ?_⟩
  refine List.forall_mem_cons.mpr ⟨Hytera.TelemetryProtocol.RemoteControlRequest.exceptions, ?_⟩
  refine List.forall_mem_cons.mpr ⟨Hytera.TelemetryProtocol.ExtendedStatusReport.exceptions, ?_⟩
  refine List.forall_mem_cons.mpr ⟨Hytera.TelemetryProtocol.StandardStatusRequest.exceptions, ?_⟩
  refine List.forall_mem_cons.mpr ⟨Hytera.TelemetryProtocol.exceptions, ?_⟩
  refine List.forall_mem_cons.mpr ⟨Hytera.TextMessageProtocol.exceptions, ?_⟩
  refine List.forall_mem_cons.mpr ⟨Motorola.AutomaticRegistrationService.MessageHeaderBits.exceptions, ?_⟩
  refine List.forall_mem_cons.mpr ⟨Motorola.AutomaticRegistrationService.DeviceRegistrationAcknowledgementHeader.exceptions, ?_⟩
  refine List.forall_mem_cons.mpr ⟨Motorola.AutomaticRegistrationService.DeviceRegistrationAcknowledgementFailureReason.exceptions, ?_⟩
  refine List.forall_mem_cons.mpr ⟨Motorola.AutomaticRegistrationService.DeviceRegistrationMessageHeader.exceptions, ?_⟩
  refine List.forall_mem_cons.mpr ⟨Motorola.AutomaticRegistrationService.DeviceDeregistrationMessage.exceptions, ?_⟩
  refine List.forall_mem_cons.mpr ⟨Motorola.AutomaticRegistrationService.ArsQueryMessage.exceptions, ?_⟩
  refine List.forall_mem_cons.mpr ⟨Motorola.AutomaticRegistrationService.exceptions, ?_⟩
  refine List.forall_mem_cons.mpr ⟨Motorola.MotorolaBinaryXml.OpaqueElementValue.exceptions, ?_⟩
  refine List.forall_mem_cons.mpr ⟨Motorola.MotorolaBinaryXml.Opaque1byteValue.exceptions, ?_⟩
  refine List.forall_mem_cons.mpr ⟨Motorola.MotorolaBinaryXml.Uintvar.exceptions, ?_⟩
  refine List.forall_mem_cons.mpr ⟨Motorola.MotorolaBinaryXml.ConstantDataTableReference.exceptions, ?_⟩
  refine List.forall_mem_cons.mpr ⟨Motorola.MotorolaBinaryXml.LrrpElement.exceptions, ?_⟩
  refine List.forall_mem_cons.mpr ⟨Motorola.MotorolaBinaryXml.LrrpImmediateRequestNcdt.exceptions, ?_⟩
  refine List.forall_mem_cons.mpr ⟨Motorola.MotorolaBinaryXml.Opaque3byteValue.exceptions, ?_⟩
  refine List.forall_mem_cons.mpr ⟨Motorola.MotorolaBinaryXml.Sintvar.exceptions, ?_⟩
  refine List.forall_mem_cons.mpr ⟨Motorola.MotorolaBinaryXml.Sfloatvar.exceptions, ?_⟩
  refine List.forall_mem_cons.mpr ⟨Motorola.MotorolaBinaryXml.Opaque5byteValue.exceptions, ?_⟩
  refine List.forall_mem_cons.mpr ⟨Motorola.MotorolaBinaryXml.Ufloatvar.exceptions, ?_⟩
  refine List.forall_mem_cons.mpr ⟨Motorola.MotorolaBinaryXml.MbxmlDocument.exceptions, ?_⟩
  refine List.forall_mem_cons.mpr ⟨Motorola.MotorolaBinaryXml.Opaque2byteValue.exceptions, ?_⟩
  refine List.forall_mem_cons.mpr ⟨Motorola.MotorolaBinaryXml.Opaque4byteValue.exceptions, ?_⟩
  refine List.forall_mem_cons.mpr ⟨Motorola.MotorolaBinaryXml.exceptions, ?_⟩
  refine List.forall_mem_cons.mpr ⟨Motorola.TextMessageProtocol.MessageHeaderBits.exceptions, ?_⟩
  refine List.forall_mem_cons.mpr ⟨Motorola.TextMessageProtocol.TextMessageHeaderSequenceAndEncoding.exceptions, ?_⟩
  refine List.forall_mem_cons.mpr ⟨Motorola.TextMessageProtocol.TmsServiceAvailabilityHeader.exceptions, ?_⟩
  refine List.forall_mem_cons.mpr ⟨Motorola.TextMessageProtocol.TmsAcknowledgementHeaderSequenceNumber.exceptions, ?_⟩
  refine List.forall_mem_cons.mpr ⟨Motorola.TextMessageProtocol.TmsServiceAvailabilityAcknowledgement.exceptions, ?_⟩
  refine List.forall_mem_cons.mpr ⟨Motorola.TextMessageProtocol.exceptions, ?_⟩
  exact List.forall_mem_nil _

/-- C40: whatever the input, `from_bytes` of every class either returns an object or raises one of the exceptions in its
table entry. -/
theorem C40_exceptions (d : Decoder) (E : List ErrKind) (hd : (d, E) ∈ exceptionTable) (b : Bytes) :
    (∃ x, fromBytes d.read b = .ok x) ∨ ∃ e, fromBytes d.read b = .error e ∧ e.kind ∈ E := by
  have := exceptionTable_sound (d, E) hd b
  rcases h : fromBytes d.read b with e | x
  · exact .inr ⟨e, rfl, this e h⟩
  · exact .inl ⟨x, rfl⟩

example (b : Bytes) : (∃ x, fromBytes Etsi.DmrCsbk.read b = .ok x) ∨ ∃ e, fromBytes Etsi.DmrCsbk.read b = .error e ∧
    e.kind ∈ [ErrKind.EOFError] :=
  C40_exceptions ⟨"Etsi.DmrCsbk", _, Etsi.DmrCsbk.read⟩ _ (List.mem_of_getElem? (i := 7) rfl) b

theorem exceptionTable_documented :
    ∀ E ∈ exceptionTable.map Prod.snd, ∀ k ∈ E,
      k ∈ [ErrKind.EOFError, .ValidationNotEqualError, .UnicodeDecodeError, .ValueError] := by
  set_option maxRecDepth 20000 in decide

/-- C40: in particular it terminates (the model reports a decoder that would never return as `Loop`) and never raises
AttributeError, IndexError or OverflowError: only the four documented exceptions. -/
theorem C40_documented (d : Decoder) (E : List ErrKind) (hd : (d, E) ∈ exceptionTable) (b : Bytes) (e : PyErr)
    (h : fromBytes d.read b = .error e) :
    e.kind ∈ [ErrKind.EOFError, .ValidationNotEqualError, .UnicodeDecodeError, .ValueError] :=
  exceptionTable_documented E (List.mem_map_of_mem hd) _ (exceptionTable_sound (d, E) hd b e h)

example := C40_documented ⟨"Etsi.DmrCsbk", _, Etsi.DmrCsbk.read⟩ _ (List.mem_of_getElem? (i := 7) rfl) [0xBD] .eof (by decide +kernel)

/-- C40: the parts of messages that are decoded with parameters from the enclosing message, likewise. -/
theorem C40_parts (n : Nat) (a : Motorola.AutomaticRegistrationService.MessageHeaderBits)
    (t : Motorola.TextMessageProtocol.MessageHeaderBits) (b : Bytes) :
    Errs [.EOFError, .UnicodeDecodeError, .ValueError] (fromBytes (Hytera.DataTransmitProtocol.DtpRequest.read n) b) ∧
    Errs [.EOFError, .ValueError] (fromBytes (Hytera.DataTransmitProtocol.DataSliceTransmit.read n) b) ∧
    Errs [.EOFError, .UnicodeDecodeError] (fromBytes (Hytera.RadioControlProtocol.RadioIdentificationReply.read n) b) ∧
    Errs [.EOFError] (fromBytes (Motorola.AutomaticRegistrationService.AcknowledgementMessage.read a) b) ∧
    Errs [.EOFError] (fromBytes (Motorola.AutomaticRegistrationService.DeviceRegistrationMessage.read a) b) ∧
    Errs [.EOFError, .UnicodeDecodeError] (fromBytes (Motorola.TextMessageProtocol.TextMessage.read t) b) ∧
    Errs [.EOFError] (fromBytes (Motorola.TextMessageProtocol.TmsServiceAvailability.read t) b) ∧
    Errs [.EOFError] (fromBytes (Motorola.TextMessageProtocol.TmsAcknowledgement.read t) b) := by
  refine ⟨?_, ?_, ?_, ?_, ?_, ?_, ?_, ?_⟩
  · rw [(Hytera.DataTransmitProtocol.DtpRequest.parses n).fromBytes]; exact Errs.map _ (Hytera.DataTransmitProtocol.DtpRequest.spec_errs n b 0)
  · rw [(Hytera.DataTransmitProtocol.DataSliceTransmit.parses n).fromBytes]; exact Errs.map _ (Hytera.DataTransmitProtocol.DataSliceTransmit.spec_errs n b 0)
  · rw [(Hytera.RadioControlProtocol.RadioIdentificationReply.parses n).fromBytes]; exact Errs.map _ (Hytera.RadioControlProtocol.RadioIdentificationReply.spec_errs n b 0)
  · rw [(Motorola.AutomaticRegistrationService.AcknowledgementMessage.parses a).fromBytes]; exact Errs.map _ (Motorola.AutomaticRegistrationService.AcknowledgementMessage.spec_errs a b 0)
  · rw [(Motorola.AutomaticRegistrationService.DeviceRegistrationMessage.parses a).fromBytes]; exact Errs.map _ (Motorola.AutomaticRegistrationService.DeviceRegistrationMessage.spec_errs a b 0)
  · rw [(Motorola.TextMessageProtocol.TextMessage.parses t).fromBytes]; exact Errs.map _ (Motorola.TextMessageProtocol.TextMessage.spec_errs t b 0)
  · rw [(Motorola.TextMessageProtocol.TmsServiceAvailability.parses t).fromBytes]; exact Errs.map _ (Motorola.TextMessageProtocol.TmsServiceAvailability.spec_errs t b 0)
  · rw [(Motorola.TextMessageProtocol.TmsAcknowledgement.parses t).fromBytes]; exact Errs.map _ (Motorola.TextMessageProtocol.TmsAcknowledgement.spec_errs t b 0)

/-- C40: the table entries of the protocols are exact: every exception listed for them is raised for some input. -/
theorem C40_raised :
    -- Hytera application messages, alone and framed
    fromBytes Hytera.RadioRegistrationService.read [] = .error .eof ∧
    fromBytes Hytera.RadioRegistrationService.read [1] = .error (.validation "/seq/0") ∧
    fromBytes Hytera.TextMessageProtocol.read [] = .error .eof ∧
    fromBytes Hytera.TextMessageProtocol.read [0, 0xA1, 0, 13, 0, 0, 0, 7, 10, 0, 0, 80, 10, 0, 0, 90, 0x48] = .error .unicode ∧
    fromBytes Hytera.TextMessageProtocol.read [0, 0xA1, 0, 11, 0, 0, 0, 7, 10, 0, 0, 80, 10, 0, 0, 90] = .error .value ∧
    fromBytes Hytera.HyteraDmrApplicationProtocol.read [] = .error .eof ∧
    fromBytes Hytera.HyteraDmrApplicationProtocol.read [0, 7, 4] = .error (.validation "/seq/4") ∧
    fromBytes Hytera.HyteraDmrApplicationProtocol.read
      [9, 0, 0xA1, 0, 13, 0, 0, 0, 7, 10, 0, 0, 80, 10, 0, 0, 90, 0x48, 0, 3] = .error .unicode ∧
    fromBytes Hytera.HyteraDmrApplicationProtocol.read
      [9, 0, 0xA1, 0, 11, 0, 0, 0, 7, 10, 0, 0, 80, 10, 0, 0, 90, 0, 3] = .error .value ∧
    fromBytes Hytera.IpSiteConnectHeartbeat.read [1] = .error (.validation "/types/keepalive/seq/0") ∧
    -- Homebrew
    fromBytes Homebrew.Homebrew2015.read [] = .error .eof ∧
    fromBytes Homebrew.Homebrew2015.read [0xFF, 0, 0, 0] = .error .unicode ∧
    fromBytes Homebrew.Mmdvm2020.read [] = .error .eof ∧
    fromBytes Homebrew.Mmdvm2020.read [0x80, 0, 0, 0] = .error .unicode ∧
    -- Motorola
    fromBytes Motorola.AutomaticRegistrationService.read [] = .error .eof ∧
    fromBytes Motorola.MotorolaBinaryXml.read [] = .error .eof ∧
    fromBytes Motorola.TextMessageProtocol.read [] = .error .eof ∧
    fromBytes Motorola.TextMessageProtocol.read [0, 4, 0, 0, 0x41] = .error .unicode := by
  refine ⟨by decide, by decide, by decide, by decide, by decide, by decide, by decide, by decide, by decide, ?_, by decide,
    by decide, by decide, by decide, by decide, by decide, by decide, by decide⟩
  exact (Hytera.C21_keepalive 1).2 (by decide)

end Dmr
