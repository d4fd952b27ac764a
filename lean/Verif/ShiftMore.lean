import Verif.ShiftAll
import Verif.LocalFrames
/-
`Shifts` for the decoders with loops or with a size in them (Motorola binary XML, RTP), and for HDAP and HRNP messages that do not
hold a telemetry message.
-/

namespace Dmr

/-- The loop of the variable-length integers. -/
theorem Shifts.intvar : Shifts (loopFuel >>= fun fuel => Dmr.repeatUntil fuel Dmr.readU1
    (fun x => do let eof1 ← Dmr.isEof; return (decide ((x &&& 128) = 0)) || eof1)) := by
  refine Shifts.loop Shifts.readU1 (fun x => ?_) Forward.readU1 fun x s => rfl
  shift_reader []

namespace Motorola.MotorolaBinaryXml

theorem Uintvar.read_shifts : Shifts Uintvar.read :=
  Shifts.bind (r := loopFuel >>= fun fuel => Dmr.repeatUntil fuel Dmr.readU1
    (fun x => do let eof1 ← Dmr.isEof; return (decide ((x &&& 128) = 0)) || eof1)) Shifts.intvar fun x => Shifts.pure' (Uintvar.mk x)

theorem Sintvar.read_shifts : Shifts Sintvar.read :=
  Shifts.bind (r := loopFuel >>= fun fuel => Dmr.repeatUntil fuel Dmr.readU1
    (fun x => do let eof1 ← Dmr.isEof; return (decide ((x &&& 128) = 0)) || eof1)) Shifts.intvar fun x => Shifts.pure' (Sintvar.mk x)

theorem ConstantDataTableReference.read_shifts : Shifts ConstantDataTableReference.read := by
  unfold ConstantDataTableReference.read; shift_reader [Uintvar.read_shifts]

theorem LrrpElement.readLrrpElementData_shifts (on : EnumVal LrrpElements) : Shifts (LrrpElement.readLrrpElementData on) := by
  unfold LrrpElement.readLrrpElementData
  shift_reader [OpaqueElementValue.read_shifts, Opaque1byteValue.read_shifts, ConstantDataTableReference.read_shifts]

theorem LrrpElement.read_shifts : Shifts LrrpElement.read := by
  unfold LrrpElement.read; shift_reader [LrrpElement.readLrrpElementData_shifts _]

theorem LrrpImmediateRequestNcdt.read_shifts : Shifts LrrpImmediateRequestNcdt.read := by
  unfold LrrpImmediateRequestNcdt.read; shift_reader [LrrpElement.read_shifts]

theorem MbxmlDocument.readDocumentData_shifts (on : EnumVal Docids) : Shifts (MbxmlDocument.readDocumentData on) := by
  unfold MbxmlDocument.readDocumentData; shift_reader [LrrpImmediateRequestNcdt.read_shifts]

theorem MbxmlDocument.read_shifts : Shifts MbxmlDocument.read := by
  unfold MbxmlDocument.read; shift_reader [Uintvar.read_shifts, MbxmlDocument.readDocumentData_shifts _]

theorem Sfloatvar.read_shifts : Shifts Sfloatvar.read := by
  unfold Sfloatvar.read; shift_reader [Uintvar.read_shifts, Sintvar.read_shifts]

theorem Ufloatvar.read_shifts : Shifts Ufloatvar.read := by
  unfold Ufloatvar.read; shift_reader [Uintvar.read_shifts]

/-- No document starts at the end of the stream. -/
theorem MbxmlDocument.read_eof (s : Stream) (h : Dmr.isEof s = (.ok true, s)) : (MbxmlDocument.read s).1 = .error .eof := by
  have h1 : s.buf.length ≤ s.pos := by
    unfold Dmr.isEof at h
    split at h
    · cases h
    · exact of_decide_eq_true (by injection (congrArg Prod.fst h))
  have h2 : Dmr.readU1 s = (.error .eof, { s with bits := 0, bitsLeft := 0 }) := by
    unfold Dmr.readU1 Dmr.readBytes
    show Rd.bind (Rd.bind Dmr.alignToByte (fun _ => readBytesNotAligned 1)) _ s = _
    unfold Rd.bind Dmr.alignToByte readBytesNotAligned
    dsimp only
    rw [List.drop_eq_nil_of_le h1]
    rfl
  show (Rd.bind (asEnum Docids Dmr.readU1) _ s).1 = _
  unfold asEnum
  show (Rd.bind (Rd.bind Dmr.readU1 _) _ s).1 = _
  unfold Rd.bind
  rw [h2]

/-- The loop over documents never makes more than two rounds. -/
theorem read_fuel (f : Nat) (s : Stream) :
    Dmr.repeatUntil (f + 2) MbxmlDocument.read (fun _ => do let eof1 ← Dmr.isEof; return !eof1) s =
      Dmr.repeatUntil 2 MbxmlDocument.read (fun _ => do let eof1 ← Dmr.isEof; return !eof1) s := by
  show Rd.bind MbxmlDocument.read _ s = Rd.bind MbxmlDocument.read _ s
  unfold Rd.bind
  rcases e : MbxmlDocument.read s with ⟨_ | x, s1⟩
  · rfl
  show Rd.bind (Rd.bind Dmr.isEof _) _ s1 = Rd.bind (Rd.bind Dmr.isEof _) _ s1
  unfold Rd.bind
  rcases e1 : Dmr.isEof s1 with ⟨_ | c, s2⟩
  · rfl
  have e2 : s2 = s1 := by have := congrArg Prod.snd e1; exact this.symm
  subst e2
  cases c
  · rfl
  · have he := MbxmlDocument.read_eof s2 e1
    show Rd.bind (Rd.bind MbxmlDocument.read _) _ s2 = Rd.bind (Rd.bind MbxmlDocument.read _) _ s2
    unfold Rd.bind
    rcases e3 : MbxmlDocument.read s2 with ⟨e4 | y, s3⟩
    · rfl
    · rw [e3] at he; cases he

theorem read_shifts : Shifts read := by
  refine Shifts.bind (r := loopFuel >>= fun fuel => Dmr.repeatUntil fuel MbxmlDocument.read
    (fun _ => do let eof1 ← Dmr.isEof; return !eof1)) ?_ fun x => Shifts.pure' (MotorolaBinaryXml.mk x)
  intro s pre
  show Dmr.repeatUntil (_ + 2) _ _ _ = ((Dmr.repeatUntil (_ + 2) _ _ s).1, (Dmr.repeatUntil (_ + 2) _ _ s).2.shift pre)
  rw [read_fuel (s.shift pre).buf.length, read_fuel s.buf.length]
  have hs : Shifts (do let eof1 ← Dmr.isEof; return !eof1) := by shift_reader []
  exact Shifts.repeatUntil MbxmlDocument.read_shifts (fun _ => hs) 2 s pre

end Motorola.MotorolaBinaryXml

namespace Hytera

/-! ### RTP -/

/-- After a fixed header the stream is not empty. -/
theorem RealTimeTransportProtocol.FixedHeader.read_nonempty {s s1 : Stream} {h : RealTimeTransportProtocol.FixedHeader}
    (e : RealTimeTransportProtocol.FixedHeader.read s = (.ok h, s1)) : 1 ≤ s.buf.length := by
  by_contra hc
  have h0 : s.buf = [] := List.eq_nil_of_length_eq_zero (by omega)
  have hu : ∀ t : Stream, t.buf = [] → ∀ a t1, Dmr.readU2be t ≠ (.ok a, t1) := by
    intro t ht a t1 h
    unfold Dmr.readU2be Dmr.readBytes at h
    change Rd.bind (Rd.bind Dmr.alignToByte (fun _ => readBytesNotAligned 2)) _ t = _ at h
    unfold Rd.bind Dmr.alignToByte readBytesNotAligned at h
    dsimp only at h
    rw [ht, List.drop_nil] at h
    cases h
  have keep {β : Type} {r : Rd β} (hr : Local AnyBuf r) {t t1 : Stream} {x : β} (ht : t.buf = []) (e : r t = (.ok x, t1)) :
      t1.buf = [] := by
    obtain ⟨c, h1, _⟩ := hr _ _ _ e
    rw [h1, ht]
  unfold RealTimeTransportProtocol.FixedHeader.read at e
  obtain ⟨_, _, k, e⟩ := of_bind_ok e
  have h0 := keep (Local.readBitsIntBe 2) h0 k
  obtain ⟨_, _, k, e⟩ := of_bind_ok e
  have h0 := keep (Local.validateEq _ _ _) h0 k
  obtain ⟨_, _, k, e⟩ := of_bind_ok e
  have h0 := keep Local.readFlag h0 k
  obtain ⟨_, _, k, e⟩ := of_bind_ok e
  have h0 := keep Local.readFlag h0 k
  obtain ⟨_, _, k, e⟩ := of_bind_ok e
  have h0 := keep (Local.readBitsIntBe 4) h0 k
  obtain ⟨_, _, k, e⟩ := of_bind_ok e
  have h0 := keep Local.readFlag h0 k
  obtain ⟨_, _, k, e⟩ := of_bind_ok e
  have h0 := keep (Local.readBitsIntBe 7) h0 k
  obtain ⟨_, _, k, e⟩ := of_bind_ok e
  have h0 := keep Local.alignToByte h0 k
  obtain ⟨_, _, k, e⟩ := of_bind_ok e
  exact hu _ h0 _ _ k

theorem RealTimeTransportProtocol.lenPadding_shifts (h : RealTimeTransportProtocol.FixedHeader) {s : Stream} (hs : 1 ≤ s.buf.length) :
    ShiftsAt (RealTimeTransportProtocol.lenPadding h) s := by
  unfold RealTimeTransportProtocol.lenPadding
  by_cases hp : h.padding = true
  · rw [if_pos hp]
    refine ShiftsAt.bind ?_ fun a s1 _ => Shifts.pure' _ _
    unfold RealTimeTransportProtocol.lenPaddingIfExists Dmr.optionally
    rw [if_pos hp]
    · refine ShiftsAt.bind ?_ fun a s1 _ => Shifts.pure' _ _
      intro pre
      have e1 : (s.shift pre).buf.length - 1 = pre.length + (s.buf.length - 1) := by
        show (pre ++ s.buf).length - 1 = _
        rw [List.length_append]; omega
      have e2 := Shifts.readU1 { s with pos := s.buf.length - 1 } pre
      have e3 : ({ s with pos := s.buf.length - 1 } : Stream).shift pre = { s.shift pre with pos := (s.shift pre).buf.length - 1 } := by
        rw [e1]; rfl
      rw [e3] at e2
      show Rd.bind Dmr.readU1 _ { s.shift pre with pos := (s.shift pre).buf.length - 1 } =
        ((Rd.bind Dmr.readU1 _ { s with pos := s.buf.length - 1 }).1, (Rd.bind Dmr.readU1 _ { s with pos := s.buf.length - 1 }).2.shift pre)
      unfold Rd.bind
      rw [e2]
      rcases Dmr.readU1 { s with pos := s.buf.length - 1 } with ⟨_ | v, t⟩ <;> rfl
  · rw [if_neg hp]; exact Shifts.pure' _ _

theorem RealTimeTransportProtocol.read_shifts : Shifts RealTimeTransportProtocol.read := by
  intro s
  unfold RealTimeTransportProtocol.read
  refine ShiftsAt.bind (RealTimeTransportProtocol.FixedHeader.read_shifts s) fun h s1 e1 => ?_
  have h1 := RealTimeTransportProtocol.FixedHeader.read_nonempty e1
  have h2 : 1 ≤ s1.buf.length := by
    obtain ⟨c, e, _⟩ := (RealTimeTransportProtocol.FixedHeader.read_local (G := AnyBuf)) _ _ _ e1
    rw [e]; exact h1
  refine ShiftsAt.bind (Shifts.optionally _ RealTimeTransportProtocol.HeaderExtension.read_shifts s1) fun x s2 e2 => ?_
  have h3 : 1 ≤ s2.buf.length := by
    obtain ⟨c, e, _⟩ := Local.optionally (G := AnyBuf) _ RealTimeTransportProtocol.HeaderExtension.read_local _ _ _ e2
    rw [e]; exact h2
  have tail (z : Int) : ShiftsAt (do
      let m_len_padding ← RealTimeTransportProtocol.lenPadding h
      let audio_data ← readBytesInt (z - (m_len_padding : Int))
      let padding ← Dmr.optionally (h.padding) (readBytes m_len_padding)
      return ({ fixed_header := h, header_extension := x, audio_data, m_len_padding, padding } : RealTimeTransportProtocol)) s2 := by
    refine ShiftsAt.bind (RealTimeTransportProtocol.lenPadding_shifts h h3) fun m s3 _ => ?_
    refine (?_ : Shifts _) s3
    shift_reader []
  intro pre
  have e4 : (((s2.shift pre).buf.length : Int) - ((s2.shift pre).pos : Int)) = (s2.buf.length : Int) - (s2.pos : Int) := by
    show (((pre ++ s2.buf).length : Int) - ((pre.length + s2.pos : Nat) : Int)) = _
    rw [List.length_append]; omega
  have := tail (((s2.shift pre).buf.length : Int) - ((s2.shift pre).pos : Int)) pre
  refine this.trans ?_
  rw [e4]
  rfl

/-! ### HDAP and HRNP -/

/-- Without telemetry there is no absolute seek. -/
theorem HyteraDmrApplicationProtocol.readData_shifts {on : EnumVal HyteraDmrApplicationProtocol.MessageHeaderTypes}
    (h : on ≠ .known .telemetry_protocol) : Shifts (HyteraDmrApplicationProtocol.readData on) := by
  unfold HyteraDmrApplicationProtocol.readData
  rw [if_neg h]
  shift_reader [RadioRegistrationService.read_shifts, RadioControlProtocol.read_shifts,
    TextMessageProtocol.read_shifts, DataDeliveryStates.read_shifts, LocationProtocol.read_shifts, DataTransmitProtocol.read_shifts]

theorem HyteraDmrApplicationProtocol.read_shiftsAt {s : Stream}
    (h : ∀ x s1, HyteraDmrApplicationProtocol.read s = (.ok x, s1) → x.message_header ≠ .known .telemetry_protocol)
    (hok : ∃ x s1, HyteraDmrApplicationProtocol.read s = (.ok x, s1)) : ShiftsAt HyteraDmrApplicationProtocol.read s := by
  obtain ⟨x, s1, hr⟩ := hok
  have hx := h x s1 hr
  unfold HyteraDmrApplicationProtocol.read at hr ⊢
  refine ShiftsAt.bind (Shifts.readFlag s) (fun flag t1 e1 => ?_)
  refine ShiftsAt.bind (Shifts.asEnum (Shifts.readBitsIntBe _) t1) (fun on t2 e2 => ?_)
  have hon : x.message_header = on := by
    obtain ⟨_, _, k, h⟩ := of_bind_ok hr
    rw [e1] at k; cases k
    obtain ⟨_, _, k, h⟩ := of_bind_ok h
    rw [e2] at k; cases k
    obtain ⟨_, _, _, h⟩ := of_bind_ok h
    obtain ⟨_, _, _, h⟩ := of_bind_ok h
    obtain ⟨_, _, _, h⟩ := of_bind_ok h
    obtain ⟨_, _, _, h⟩ := of_bind_ok h
    obtain ⟨_, _, _, h⟩ := of_bind_ok h
    cases h
    rfl
  have hl := HyteraDmrApplicationProtocol.readData_shifts (hon ▸ hx)
  refine (?_ : Shifts _) t2
  shift_reader [hl]

end Hytera

end Dmr
