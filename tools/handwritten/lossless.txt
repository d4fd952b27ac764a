== Motorola.TextMessageProtocol.TmsAcknowledgementHeaderSequenceNumber.read
  refine Lossless.bind (m := 1) (·.has_msb_header) (Lossless.flag' rfl) (fun has_msb_header => ?_) (by returns) (by returns)
  refine Lossless.bind (m := 3) (·.header_lsb_reserved) (Lossless.bits' 2 rfl) (fun _ => ?_) (by returns) (by returns)
  refine Lossless.bind (m := 0) (·.header_lsb_bits) (Lossless.bits' 5 rfl) (fun _ => ?_) (by returns) (by returns)
  cases has_msb_header
  · exact Lossless.pure rfl
  · refine Lossless.bind (m := 1) (·.header_msb_extension) (Lossless.optTrue (Lossless.flag' rfl)) (fun _ => ?_) (by returns) (by returns)
    refine Lossless.bind (m := 3) (·.header_msb_bits) (Lossless.optTrue (Lossless.bits' 2 rfl)) (fun _ => ?_) (by returns) (by returns)
    refine Lossless.bind (m := 0) (·.header_msb_reserved) (Lossless.optTrue (Lossless.bits' 5 rfl)) (fun _ => ?_) (by returns) (by returns)
    exact Lossless.pure rfl
== Hytera.TelemetryProtocol.read
  refine Lossless.bind (m := 0) (·.service_type_opcode) (Lossless.asEnum Lossless.u1) (fun _ => ?_) (by returns) (by returns)
  refine Lossless.bind (m := 0) (·.specific_service_opcode) Lossless.u1 (fun _ => ?_) (by returns) (by returns)
  refine Lossless.bind (m := 0) (·.message_length) Lossless.u2be (fun _ => ?_) (by returns) (by returns)
  have hs : Silent TelemetryProtocol.computeSpecificService := Silent.peek 0 Bytewise.u2be.asEnum
  refine Lossless.bind (m := 0) (·.m_specific_service) (Lossless.ofSilent hs hs) (fun _ => ?_) (by returns) (by returns)
  refine Lossless.bind (m := 0) (·.data) (Hytera.TelemetryProtocol.readData_lossless _) (fun _ => ?_) (by returns) (by returns)
  exact Lossless.pure rfl
== Hytera.TextMessageProtocol.readOptionField
  cases len
  · exact Lossless.throw
  · exact Lossless.bytes _
== Hytera.TextMessageProtocol.read
  refine Lossless.bind (m := 1) (·.ack_flag) (Lossless.asEnum (Lossless.bits' 1 rfl)) (fun _ => ?_) (by returns) (by returns)
  refine Lossless.bind (m := 2) (·.option_flag) (Lossless.asEnum (Lossless.bits' 1 rfl)) (fun option_flag => ?_) (by returns) (by returns)
  refine Lossless.bind (m := 0) (·.reserved) (Lossless.bits' 6 rfl) (fun _ => ?_) (by returns) (by returns)
  refine Lossless.align rfl ?_
  refine Lossless.bind (m := 0) (·.service_type) (Lossless.asEnum Lossless.u1) (fun service_type => ?_) (by returns) (by returns)
  refine Lossless.bind (m := 0) (·.message_length) Lossless.u2be (fun message_length => ?_) (by returns) (by returns)
  cases option_flag with
  | raw v => exact Lossless.throw
  | known e =>
    refine Lossless.pureBind ?_
    refine Lossless.bind (m := 0) (·.option_field_len) (Lossless.optionally fun _ _ => Lossless.u2be) (fun option_field_len => ?_) (by returns) (by returns)
    refine Lossless.bind (m := 0) (·.request_id) Lossless.u4be (fun _ => ?_) (by returns) (by returns)
    refine Lossless.bind (m := 0) (·.destination_ip) Hytera.RadioIp.read_lossless (fun _ => ?_) (by returns) (by returns)
    refine Lossless.bind (m := 0) (·.source_ip) (Lossless.optionally fun _ _ => Hytera.RadioIp.read_lossless) (fun _ => ?_) (by returns) (by returns)
    refine Lossless.bind (m := 0) (·.result) (Lossless.optionally fun _ _ => Lossless.asEnum Lossless.u1) (fun _ => ?_) (by returns) (by returns)
    refine Lossless.bind (m := 0) (·.tmdata) (Lossless.optionally fun _ _ => ?_) (fun _ => ?_) (by returns) (by returns)
    · have hs : TextMessageProtocol.optionSumLen (.known e) option_field_len =
          if PyEnum.value e = 1 then (match option_field_len with | some n => Pure.pure (n + 2) | none => Rd.throw .attribute)
          else Pure.pure 0 := by
        unfold TextMessageProtocol.optionSumLen TextMessageProtocol.optionFlagIsOne
        dsimp only
        by_cases h1 : PyEnum.value e = 1
        · rw [if_pos h1, decide_eq_true h1]; rfl
        · rw [if_neg h1, decide_eq_false h1]; rfl
      rw [hs]
      split
      · cases option_field_len
        · exact Lossless.throw
        · exact Lossless.decodeWith (Lossless.bytesInt _) decodeUtf16le_inj
      · exact Lossless.decodeWith (Lossless.bytesInt _) decodeUtf16le_inj
    · refine Lossless.pureBind ?_
      refine Lossless.bind (m := 0) (·.option_field) (Lossless.optionally fun _ _ => Lossless.decodeWith (Hytera.TextMessageProtocol.readOptionField_lossless _) decodeUtf16le_inj) (fun _ => ?_) (by returns) (by returns)
      exact Lossless.pure rfl
== Hytera.RealTimeTransportProtocol.read
  refine Lossless.bind (m := 0) (·.fixed_header) Hytera.RealTimeTransportProtocol.FixedHeader.read_lossless (fun fixed_header => ?_) (by returns) (by returns)
  refine Lossless.bind (m := 0) (·.header_extension) (Lossless.optionally fun _ _ => Hytera.RealTimeTransportProtocol.HeaderExtension.read_lossless) (fun _ => ?_) (by returns) (by returns)
  refine Lossless.peek Silent.size Silent.size fun n n' => ?_
  refine Lossless.peek Silent.pos Silent.pos fun q q' => ?_
  have hs : Silent (RealTimeTransportProtocol.lenPadding fixed_header) := by
    unfold RealTimeTransportProtocol.lenPadding RealTimeTransportProtocol.lenPaddingIfExists
    split
    · refine Silent.bind (Silent.optionally ?_) fun _ => Silent.pure _
      intro b q a s hq e
      rw [eval_bind, eval_posIo, andThen_ok, eval_bind, eval_sizeIo, andThen_ok] at e
      refine Silent.peek (b.length - 1) Bytewise.u1 b q a s hq ?_
      rw [eval_bind, eval_posIo, andThen_ok]
      exact e
    · exact Silent.pure _
  refine Lossless.bind (m := 0) (·.m_len_padding) (Lossless.ofSilent hs hs) (fun _ => ?_) (by returns) (by returns)
  refine Lossless.bind (m := 0) (·.audio_data) (Lossless.bytesInt₂ _ _) (fun _ => ?_) (by returns) (by returns)
  refine Lossless.bind (m := 0) (·.padding) (Lossless.optionally fun _ _ => Lossless.bytes _) (fun _ => ?_) (by returns) (by returns)
  exact Lossless.pure rfl
== Hytera.IpSiteConnectHeartbeat.read
  refine Lossless.peek Silent.size Silent.size fun n n' => ?_
  refine Lossless.bind (m := 0) (·.data) ?_ (fun _ => Lossless.pure rfl) (by returns) (by returns)
  unfold IpSiteConnectHeartbeat.readData
  repeat' split
  · exact Lossless.map Hytera.IpSiteConnectHeartbeat.Keepalive.read_lossless fun _ _ h => by injections
  · exact Lossless.clash (P := fun x => ∃ y, x = .keepalive y) (Returns.bind fun _ => Returns.pure ⟨_, rfl⟩) (Returns.bind fun _ => Returns.pure (by simp))
  · exact Lossless.clash (P := fun x => ∃ y, x = .keepalive y) (Returns.bind fun _ => Returns.pure ⟨_, rfl⟩) (Returns.bind fun _ => Returns.pure (by simp))
  · exact Lossless.clash (P := fun x => ∃ y, x = .pingPong y) (Returns.bind fun _ => Returns.pure ⟨_, rfl⟩) (Returns.bind fun _ => Returns.pure (by simp))
  · exact Lossless.map Hytera.IpSiteConnectHeartbeat.PingPong.read_lossless fun _ _ h => by injections
  · exact Lossless.clash (P := fun x => ∃ y, x = .pingPong y) (Returns.bind fun _ => Returns.pure ⟨_, rfl⟩) (Returns.bind fun _ => Returns.pure (by simp))
  · exact Lossless.clash (P := fun x => ∃ y, x = .unknown y) (Returns.bind fun _ => Returns.pure ⟨_, rfl⟩) (Returns.bind fun _ => Returns.pure (by simp))
  · exact Lossless.clash (P := fun x => ∃ y, x = .unknown y) (Returns.bind fun _ => Returns.pure ⟨_, rfl⟩) (Returns.bind fun _ => Returns.pure (by simp))
  · exact Lossless.map Hytera.IpSiteConnectHeartbeat.Unknown.read_lossless fun _ _ h => by injections
== Homebrew.Homebrew2015.TypeRepeaterConfigurationOrClosing.read
  have hs : Silent Homebrew2015.computeFifthLetter := Silent.peek 4 (Bytewise.bytes 1).decodeWith
  refine Lossless.peek hs hs fun on on' => ?_
  refine Lossless.bind (m := 0) (·.data) ?_ (fun _ => Lossless.pure rfl) (by returns) (by returns)
  unfold Homebrew2015.TypeRepeaterConfigurationOrClosing.readData
  repeat' split
  · exact Lossless.map Homebrew.Homebrew2015.TypeRepeaterClosing.read_lossless fun _ _ h => by injections
  · exact Lossless.clash (P := fun x => ∃ y, x = .typeRepeaterClosing y) (Returns.bind fun _ => Returns.pure ⟨_, rfl⟩) (Returns.bind fun _ => Returns.pure (by simp))
  · exact Lossless.clash (P := fun x => ∃ y, x = .typeRepeaterConfiguration y) (Returns.bind fun _ => Returns.pure ⟨_, rfl⟩) (Returns.bind fun _ => Returns.pure (by simp))
  · exact Lossless.map Homebrew.Homebrew2015.TypeRepeaterConfiguration.read_lossless fun _ _ h => by injections
== Homebrew.Mmdvm2020.TypeRepeaterConfigurationOrClosing.read
  have hs : Silent Mmdvm2020.computeFifthLetter := Silent.peek 4 (Bytewise.bytes 1).decodeWith
  refine Lossless.peek hs hs fun on on' => ?_
  refine Lossless.bind (m := 0) (·.data) ?_ (fun _ => Lossless.pure rfl) (by returns) (by returns)
  unfold Mmdvm2020.TypeRepeaterConfigurationOrClosing.readData
  repeat' split
  · exact Lossless.map Homebrew.Mmdvm2020.TypeRepeaterClosing.read_lossless fun _ _ h => by injections
  · exact Lossless.clash (P := fun x => ∃ y, x = .typeRepeaterClosing y) (Returns.bind fun _ => Returns.pure ⟨_, rfl⟩) (Returns.bind fun _ => Returns.pure (by simp))
  · exact Lossless.clash (P := fun x => ∃ y, x = .typeRepeaterConfiguration y) (Returns.bind fun _ => Returns.pure ⟨_, rfl⟩) (Returns.bind fun _ => Returns.pure (by simp))
  · exact Lossless.map Homebrew.Mmdvm2020.TypeRepeaterConfiguration.read_lossless fun _ _ h => by injections
