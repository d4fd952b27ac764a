import Verif.Py.Depth
import Verif.Py.Grow
import Verif.Py.Source
/-
C74: how deeply the calls of the library nest. Python gives up (RecursionError) if too many calls are active at the same time;
`calls library n` and `fromBytes library n` (Verif/Py/Semantics) are the library if `n` may be. A packet cannot make the calls nest deeply:
of the functions of the library never more than thirteen are active, whatever the packet is, whatever the objects in memory are, however
many elements are read.
-/

set_option autoImplicit false

namespace Dmr.Py

/-- The classes that need more than two calls inside each other (the constructor and `_read`). -/
def nestedClasses : List (String × Nat) :=
  [("Hytera.DataDeliveryStates", 4), ("Hytera.DataTransmitProtocol.LastDataSlice", 4),
    ("Hytera.DataTransmitProtocol.DtpRequest", 4), ("Hytera.DataTransmitProtocol.DataSliceAnswer", 4),
    ("Hytera.DataTransmitProtocol.DataSliceTransmit", 4), ("Hytera.DataTransmitProtocol.LastDataSliceAnswer", 4),
    ("Hytera.DataTransmitProtocol.DtpAnswer", 4), ("Hytera.DataTransmitProtocol", 6), ("Hytera.HyteraDmrApplicationProtocol", 10),
    ("Hytera.HyteraRadioNetworkProtocol", 12), ("Hytera.HyteraSimpleTransportReliabilityProtocol", 12),
    ("Hytera.IpSiteConnectHeartbeat", 4), ("Hytera.LocationProtocol.TriggeredReportStopAnswer", 4),
    ("Hytera.LocationProtocol.ConditionReportRequest", 4), ("Hytera.LocationProtocol.ConditionQuickGpsRequest", 6),
    ("Hytera.LocationProtocol.ConditionReport", 4), ("Hytera.LocationProtocol.EmergencyReport", 4),
    ("Hytera.LocationProtocol.TriggeredReportAnswer", 4), ("Hytera.LocationProtocol.StandardAnswerWithRssi", 4),
    ("Hytera.LocationProtocol.QuickGpsPayload", 4), ("Hytera.LocationProtocol.StandardRequest", 4),
    ("Hytera.LocationProtocol.TriggeredReportRequest", 4), ("Hytera.LocationProtocol.StandardAnswer", 4),
    ("Hytera.LocationProtocol.ConditionReportAnswer", 4), ("Hytera.LocationProtocol.EmergencyReportStopRequest", 4),
    ("Hytera.LocationProtocol.ConditionQuickGpsAnswer", 4), ("Hytera.LocationProtocol.TriggeredReport", 4),
    ("Hytera.LocationProtocol.ConditionReportWithRssi", 4), ("Hytera.LocationProtocol.EmergencyReportStopAnswer", 4),
    ("Hytera.LocationProtocol.TriggeredReportStopRequest", 4), ("Hytera.LocationProtocol", 8),
    ("Hytera.RadioControlProtocol.BroadcastStatusConfigurationRequest", 4), ("Hytera.RadioControlProtocol", 6),
    ("Hytera.RadioRegistrationService", 4), ("Hytera.RealTimeTransportProtocol.HeaderExtension", 4),
    ("Hytera.RealTimeTransportProtocol", 6), ("Hytera.TelemetryProtocol.StandardStatusReport", 4),
    ("Hytera.TelemetryProtocol.RemoteControlAnswer", 4), ("Hytera.TelemetryProtocol.RemoteControlRequest", 4),
    ("Hytera.TelemetryProtocol.ExtendedStatusReport", 4), ("Hytera.TelemetryProtocol.StandardStatusRequest", 4),
    ("Hytera.TelemetryProtocol", 6), ("Hytera.TextMessageProtocol", 4), ("Etsi.DmrCsbk.UnitToUnitVoiceRequestData", 4),
    ("Etsi.DmrCsbk.UnitToUnitVoiceAnswerData", 4), ("Etsi.DmrCsbk", 6), ("Etsi.FullLinkControl", 4),
    ("Homebrew.Homebrew2015.TypeRepeaterConfigurationOrClosing", 4), ("Homebrew.Homebrew2015", 6),
    ("Homebrew.Mmdvm2020.TypeRepeaterConfigurationOrClosing", 4), ("Homebrew.Mmdvm2020", 6),
    ("Motorola.AutomaticRegistrationService.AcknowledgementMessage", 4),
    ("Motorola.AutomaticRegistrationService.DeviceRegistrationMessage", 4), ("Motorola.AutomaticRegistrationService", 6),
    ("Motorola.MotorolaBinaryXml.LrrpImmediateRequestNcdt", 8), ("Motorola.MotorolaBinaryXml.LrrpElement", 6),
    ("Motorola.MotorolaBinaryXml.Sfloatvar", 4), ("Motorola.MotorolaBinaryXml.Ufloatvar", 4),
    ("Motorola.MotorolaBinaryXml.ConstantDataTableReference", 4), ("Motorola.MotorolaBinaryXml.MbxmlDocument", 10),
    ("Motorola.MotorolaBinaryXml", 12), ("Motorola.TextMessageProtocol.TextMessage", 4),
    ("Motorola.TextMessageProtocol.TmsServiceAvailability", 4), ("Motorola.TextMessageProtocol.TmsAcknowledgement", 4),
    ("Motorola.TextMessageProtocol", 6)]

/-- The properties. -/
def nestedProperties : List (String × Nat) :=
  [("gps_available", 1), ("source_radio_id", 1), ("destination_radio_id", 1), ("color_code", 1), ("is_wakeup", 1), ("opcode", 1),
    ("radio_id", 1), ("radio_ip", 1), ("len_padding_if_exists", 1), ("len_padding", 2), ("specific_service", 1),
    ("option_sum_len", 1), ("appended_blocks", 1), ("data", 3), ("fifth_letter", 1), ("sequence_number", 1),
    ("custom_pdu_type", 1)]

theorem library_levelled : ∀ d ∈ library.classes, Depth.levelled ⟨nestedClasses, nestedProperties⟩ d = true := by
  have h : library.classes.all (Depth.levelled ⟨nestedClasses, nestedProperties⟩) = true := by decide +kernel
  exact List.all_eq_true.1 h

/-- How many calls of functions of the library may be active while the decoder runs. -/
def nesting : List (String × Nat) :=
  [("Hytera.DataDeliveryStates", 5), ("Hytera.DataTransmitProtocol", 7), ("Hytera.HyteraDmrApplicationProtocol", 11),
    ("Hytera.HyteraRadioNetworkProtocol", 13), ("Hytera.HyteraSimpleTransportReliabilityProtocol", 13),
    ("Hytera.IpSiteConnectHeartbeat", 5), ("Hytera.LocationProtocol", 9), ("Hytera.RadioControlProtocol", 7),
    ("Hytera.RadioRegistrationService", 5), ("Hytera.RealTimeTransportProtocol", 7), ("Hytera.TelemetryProtocol", 7),
    ("Hytera.TextMessageProtocol", 5), ("Etsi.DmrCsbk", 7), ("Etsi.FullLinkControl", 5), ("Homebrew.Homebrew2015", 7),
    ("Homebrew.Mmdvm2020", 7), ("Motorola.AutomaticRegistrationService", 7), ("Motorola.MotorolaBinaryXml", 13),
    ("Motorola.TextMessageProtocol", 7), ("Hytera.RadioId", 3), ("Hytera.RadioIp", 3), ("Hytera.Gpsdata", 3),
    ("Hytera.Datetimestring", 3), ("Hytera.Intervalstring", 3), ("Hytera.IpSiteConnectProtocol", 3), ("Etsi.DmrData", 3),
    ("Etsi.DmrDataHeader", 3), ("Etsi.DmrIpUdp", 3)]

theorem lookup_bound {l : List (String × Nat)} {x : String} {v d : Nat} (h : l.all (fun p => decide (p.2 ≤ v)) = true) (hd : d ≤ v) : (l.lookup x).getD d ≤ v := by
  cases hx : l.lookup x with
  | none => exact hd
  | some w =>
    have := List.all_eq_true.1 h _ (lookup_mem hx)
    exact of_decide_eq_true this

/-- **C74**. With thirteen, making an object of any class from any arguments, and any property of any object, in any memory, does what it
does with any larger number. -/
theorem C74_nesting (n : Nat) (hn : 13 ≤ n) (σ : State) :
    (∀ cls args, ((calls library n).construct cls args).run σ = ((calls library 13).construct cls args).run σ) ∧
    ∀ r x, ((calls library n).property r x).run σ = ((calls library 13).property r x).run σ := by
  have h := Depth.calls_alike library_levelled 13 n 13 hn (Nat.le_refl _)
  refine ⟨fun cls args => ?_, fun r x => ?_⟩
  · rw [h.construct cls (Nat.succ_le_succ (lookup_bound (by decide +kernel) (by decide))) args]
  · rw [h.property r x (Nat.succ_le_succ (lookup_bound (by decide +kernel) (by decide)))]

/-- **C74**. For each decoder the number that is enough. -/
theorem C74_decoder (name : String) (k : Nat) (h : (name, k) ∈ nesting) (n : Nat) (hn : k ≤ n) (args : List Val) (σ : State) :
    ((calls library n).construct name args).run σ = ((calls library k).construct name args).run σ := by
  have h1 := Depth.calls_alike library_levelled k n k hn (Nat.le_refl _)
  have h2 : nesting.all (fun p => decide (Depth.Levels.cls ⟨nestedClasses, nestedProperties⟩ p.1 ≤ p.2)) = true := by decide +kernel
  rw [h1.construct name (of_decide_eq_true (List.all_eq_true.1 h2 _ h)) args]

/-- **C74**. The properties need at most four. -/
theorem C74_property (n : Nat) (hn : 4 ≤ n) (r : Nat) (x : String) (σ : State) :
    ((calls library n).property r x).run σ = ((calls library 4).property r x).run σ := by
  rw [(Depth.calls_alike library_levelled 4 n 4 hn (Nat.le_refl _)).property r x (Nat.succ_le_succ (lookup_bound (by decide +kernel) (by decide)))]

/-- A request for quick GPS reports, with the times and the interval, in an HRNP packet. -/
def deepPacket : Bytes := [0x7e, 0x04, 0x00, 0x00, 0x20, 0x10, 0x00, 0x01, 0x00, 0x45, 0x9b, 0x60, 0x08, 0xd0, 0x11, 0x00, 0x32, 0x00, 0x00, 0x00, 0x01, 0x0a, 0x23, 0x38, 0x63, 0x01, 0x30, 0x30, 0x30, 0x30, 0x30, 0x30, 0x30, 0x30, 0x30, 0x30, 0x30, 0x30, 0x30, 0x30, 0x30, 0x30, 0x30, 0x30, 0x30, 0x30, 0x30, 0x30, 0x30, 0x30, 0x30, 0x30, 0x30, 0x30, 0x30, 0x30, 0x30, 0x30, 0x30, 0x30, 0x30, 0x30, 0x00, 0x01, 0x32, 0x00, 0x01, 0x11, 0x03]

/-- Whether the calls were nested too deeply. -/
def tooDeep : Out Val → Bool
  | .raise .diverge _ => true
  | _ => false

/-- Whether it returns. -/
def returns : Out Val → Bool
  | .ok _ _ => true
  | _ => false

/-- **C74**. Packets that need twelve exist: an HRNP packet with a request for quick GPS reports cannot be decoded with eleven. -/
theorem C74_sharp : tooDeep (fromBytes library 11 "Hytera.HyteraRadioNetworkProtocol" deepPacket) = true ∧
    ∀ n, 13 ≤ n → returns (fromBytes library n "Hytera.HyteraRadioNetworkProtocol" deepPacket) = true := by
  refine ⟨by decide +kernel, fun n hn => ?_⟩
  unfold fromBytes
  rw [(C74_nesting n hn _).1]
  decide +kernel

end Dmr.Py
