== Motorola.TextMessageProtocol.TmsAcknowledgementHeaderSequenceNumber.read
  refine Fits.bind 1 (Fits.flag (by decide)) fun has_msb_header => ?_
  refine Fits.bind 3 (Fits.bits 2 (by decide)) fun _ => ?_
  refine Fits.bind 0 (Fits.bits 5 (by decide)) fun _ => ?_
  cases has_msb_header
  · exact Fits.pure (by decide) (by weigh [Motorola.TextMessageProtocol.TmsAcknowledgementHeaderSequenceNumber.toPy])
  · refine Fits.bind 1 (Fits.optTrue (Fits.flag (by decide))) fun _ => ?_
    refine Fits.bind 3 (Fits.optTrue (Fits.bits 2 (by decide))) fun _ => ?_
    refine Fits.bind 0 (Fits.optTrue (Fits.bits 5 (by decide))) fun _ => ?_
    exact Fits.pure (by decide) (by weigh [Motorola.TextMessageProtocol.TmsAcknowledgementHeaderSequenceNumber.toPy])
== Hytera.TelemetryProtocol.read
  refine Fits.bind 0 (Fits.asEnum Fits.u1) fun _ => ?_
  refine Fits.bind 0 Fits.u1 fun _ => ?_
  refine Fits.bind 0 Fits.u2be fun _ => ?_
  refine Fits.peek (Silent.peek 0 Bytewise.u2be.asEnum : Silent TelemetryProtocol.computeSpecificService) fun _ => ?_
  refine Fits.bind 0 (Hytera.TelemetryProtocol.readData_fits _) fun _ => ?_
  exact Fits.pure (by decide) (by weigh [Hytera.TelemetryProtocol.toPy])
== Hytera.TextMessageProtocol.readOptionField
  cases len
  · exact Fits.throw
  · exact Fits.bytes _
== Hytera.TextMessageProtocol.read
  refine Fits.bind 1 (Fits.asEnum (Fits.bits 1 (by decide))) fun _ => ?_
  refine Fits.bind 2 (Fits.asEnum (Fits.bits 1 (by decide))) fun option_flag => ?_
  refine Fits.bind 0 (Fits.bits 6 (by decide)) fun _ => ?_
  refine Fits.align ?_
  refine Fits.bind 0 (Fits.asEnum Fits.u1) fun service_type => ?_
  refine Fits.bind 0 Fits.u2be fun message_length => ?_
  cases option_flag with
  | raw v => exact Fits.throw
  | known e =>
    refine Fits.bind 0 (ga := fun _ => 0) (Fits.pure (by decide) (by decide)) fun hasopt => ?_
    refine Fits.bind 0 (Fits.optionally fun _ => Fits.u2be) fun option_field_len => ?_
    refine Fits.bind 0 Fits.u4be fun _ => ?_
    refine Fits.bind 0 Hytera.RadioIp.read_fits fun _ => ?_
    refine Fits.bind 0 (Fits.optionally fun _ => Hytera.RadioIp.read_fits) fun _ => ?_
    refine Fits.bind 0 (Fits.optionally fun _ => Fits.asEnum Fits.u1) fun _ => ?_
    refine Fits.bind 0 (Fits.optionally (g := fun s => 8 * s.length) fun _ => ?_) fun tmdata => ?_
    · refine Fits.bind 0 (ga := fun _ => 0) ?_ fun _ => Fits.decodeWith (Fits.bytesInt _) decodeUtf16le_short
      unfold TextMessageProtocol.optionSumLen TextMessageProtocol.optionFlagIsOne
      dsimp only
      by_cases h1 : PyEnum.value e = 1
      · rw [decide_eq_true h1]
        cases option_field_len
        · exact Fits.throw
        · exact Fits.pure (by decide) (by decide)
      · rw [decide_eq_false h1]
        exact Fits.pure (by decide) (by decide)
    · refine Fits.bind 0 (ga := fun _ => 0) (Fits.pure (by decide) (by decide)) fun hasopt2 => ?_
      refine Fits.bind 0 (Fits.optionally fun _ => Fits.decodeWith (Hytera.TextMessageProtocol.readOptionField_fits _) decodeUtf16le_short) fun _ => ?_
      refine Fits.pure (by decide) ?_
      have h0 : PyVal.amountAttrs (PyVal.optAttr "_m_option_sum_len"
          (tmdata.map fun _ => .int (match option_field_len with | some n => Int.ofNat n + 2 | none => 0))) = 0 := by
        cases tmdata <;> simp [PyVal.optAttr, PyVal.amountAttrs, PyVal.amount]
      weigh [Hytera.TextMessageProtocol.toPy, h0]
== Hytera.RealTimeTransportProtocol.read
  refine Fits.bind 0 Hytera.RealTimeTransportProtocol.FixedHeader.read_fits fun fixed_header => ?_
  refine Fits.bind 0 (Fits.optionally fun _ => Hytera.RealTimeTransportProtocol.HeaderExtension.read_fits) fun _ => ?_
  refine Fits.peek Silent.size fun n => ?_
  refine Fits.peek Silent.pos fun q => ?_
  have hs : Silent (RealTimeTransportProtocol.lenPadding fixed_header) := by
    unfold RealTimeTransportProtocol.lenPadding RealTimeTransportProtocol.lenPaddingIfExists
    split
    · refine Silent.bind (Silent.optionally ?_) fun _ => Silent.pure _
      intro b q a s hq e
      rw [eval_bind, eval_posIo, andThen_ok, eval_bind, eval_sizeIo, andThen_ok] at e
      refine Silent.peek (b.length - 1) Bytewise.u1 b q a s hq ?_
      rw [eval_bind, eval_posIo, andThen_ok]
      exact e
    · exact Silent.pure _
  refine Fits.peek hs fun len => ?_
  refine Fits.bind 0 (Fits.bytesInt _) fun _ => ?_
  refine Fits.bind 0 (Fits.optionally fun _ => Fits.bytes _) fun _ => ?_
  refine Fits.pure (by decide) ?_
  have h0 : PyVal.amountAttrs (PyVal.optAttr "_m_len_padding_if_exists"
      (if fixed_header.padding then some (.int (Int.ofNat len)) else none)) = 0 := by split <;> rfl
  weigh [Hytera.RealTimeTransportProtocol.toPy, h0]
== Hytera.IpSiteConnectHeartbeat.read
  refine Fits.peek Silent.size fun n => ?_
  refine Fits.bind 0 (ga := fun x => 8 * PyVal.amount (Hytera.IpSiteConnectHeartbeat.DataUnion.toPy x)) ?_
    fun _ => Fits.pure (by decide) (by weigh [Hytera.IpSiteConnectHeartbeat.toPy])
  unfold IpSiteConnectHeartbeat.readData
  repeat' split
  · exact Fits.map Hytera.IpSiteConnectHeartbeat.Keepalive.read_fits fun _ => by weigh [Hytera.IpSiteConnectHeartbeat.DataUnion.toPy]
  · exact Fits.map Hytera.IpSiteConnectHeartbeat.PingPong.read_fits fun _ => by weigh [Hytera.IpSiteConnectHeartbeat.DataUnion.toPy]
  · exact Fits.map Hytera.IpSiteConnectHeartbeat.Unknown.read_fits fun _ => by weigh [Hytera.IpSiteConnectHeartbeat.DataUnion.toPy]
== Homebrew.Homebrew2015.TypeRepeaterConfigurationOrClosing.read
  refine Fits.peek (Silent.peek 4 (Bytewise.bytes 1).decodeWith : Silent Homebrew2015.computeFifthLetter) fun on => ?_
  refine Fits.bind 0 (ga := fun x => 8 + 8 * PyVal.amount (Homebrew.Homebrew2015.TypeRepeaterConfigurationOrClosing.DataUnion.toPy x)) ?_
    fun _ => Fits.pure (by decide) (by weigh [Homebrew.Homebrew2015.TypeRepeaterConfigurationOrClosing.toPy])
  unfold Homebrew2015.TypeRepeaterConfigurationOrClosing.readData
  repeat' split
  · exact Fits.map Homebrew.Homebrew2015.TypeRepeaterClosing.read_fits fun _ => by weigh [Homebrew.Homebrew2015.TypeRepeaterConfigurationOrClosing.DataUnion.toPy]
  · exact Fits.map Homebrew.Homebrew2015.TypeRepeaterConfiguration.read_fits fun _ => by weigh [Homebrew.Homebrew2015.TypeRepeaterConfigurationOrClosing.DataUnion.toPy]
== Homebrew.Mmdvm2020.TypeRepeaterConfigurationOrClosing.read
  refine Fits.peek (Silent.peek 4 (Bytewise.bytes 1).decodeWith : Silent Mmdvm2020.computeFifthLetter) fun on => ?_
  refine Fits.bind 0 (ga := fun x => 8 + 8 * PyVal.amount (Homebrew.Mmdvm2020.TypeRepeaterConfigurationOrClosing.DataUnion.toPy x)) ?_
    fun _ => Fits.pure (by decide) (by weigh [Homebrew.Mmdvm2020.TypeRepeaterConfigurationOrClosing.toPy])
  unfold Mmdvm2020.TypeRepeaterConfigurationOrClosing.readData
  repeat' split
  · exact Fits.map Homebrew.Mmdvm2020.TypeRepeaterClosing.read_fits fun _ => by weigh [Homebrew.Mmdvm2020.TypeRepeaterConfigurationOrClosing.DataUnion.toPy]
  · exact Fits.map Homebrew.Mmdvm2020.TypeRepeaterConfiguration.read_fits fun _ => by weigh [Homebrew.Mmdvm2020.TypeRepeaterConfigurationOrClosing.DataUnion.toPy]
== Homebrew.Homebrew2015.read
  refine Fits.bind 0 (Fits.decodeWith (Fits.bytes _) decodeUtf8_short) fun command_prefix => ?_
  refine Fits.bind 0 (Homebrew.Homebrew2015.readCommandData_fits _) fun command_data => ?_
  refine Fits.pure (by decide) ?_
  cases command_data <;> weigh [Homebrew.Homebrew2015.toPy, amount_fifth]
== Homebrew.Mmdvm2020.read
  refine Fits.bind 0 (Fits.decodeWith (Fits.bytes _) decodeAscii_short) fun command_prefix => ?_
  refine Fits.bind 0 (Homebrew.Mmdvm2020.readCommandData_fits _) fun command_data => ?_
  refine Fits.pure (by decide) ?_
  cases command_data <;> weigh [Homebrew.Mmdvm2020.toPy, amount_fifth]
