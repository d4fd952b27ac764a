import Verif.Layout.HyteraFrame
import Verif.TextProofs
import Verif.Props.Dispatch
/-
C07, C09, C10, C11, C12, C13, C14: the Hytera application messages.
-/

namespace Dmr.Hytera

open Spec

/-! ### C07 Location Protocol -/

/-- The name of the body class of a decoded location message. -/
def LocationProtocol.DataUnion.name : LocationProtocol.DataUnion → String
  | .triggeredReportAnswer _ => "TriggeredReportAnswer"
  | .emergencyReportStopRequest _ => "EmergencyReportStopRequest"
  | .conditionQuickGpsRequest _ => "ConditionQuickGpsRequest"
  | .conditionReport _ => "ConditionReport"
  | .emergencyReportStopAnswer _ => "EmergencyReportStopAnswer"
  | .conditionReportAnswer _ => "ConditionReportAnswer"
  | .standardAnswer _ => "StandardAnswer"
  | .standardRequest _ => "StandardRequest"
  | .triggeredReport _ => "TriggeredReport"
  | .triggeredReportStopAnswer _ => "TriggeredReportStopAnswer"
  | .standardAnswerWithRssi _ => "StandardAnswerWithRssi"
  | .conditionReportWithRssi _ => "ConditionReportWithRssi"
  | .triggeredReportStopRequest _ => "TriggeredReportStopRequest"
  | .emergencyReport _ => "EmergencyReport"
  | .conditionReportRequest _ => "ConditionReportRequest"
  | .triggeredReportRequest _ => "TriggeredReportRequest"
  | .conditionQuickGpsAnswer _ => "ConditionQuickGpsAnswer"

/-- The documented location messages: opcode, body, size of the body (the least size for the quick GPS request). -/
def locationTable : List (Nat × String × Nat) :=
  [(0xA001, "StandardRequest", 8), (0xA002, "StandardAnswer", 50), (0xA003, "StandardAnswerWithRssi", 52),
   (0xB001, "EmergencyReportStopRequest", 8), (0xB002, "EmergencyReportStopAnswer", 10), (0xB003, "EmergencyReport", 45),
   (0xC001, "TriggeredReportRequest", 44), (0xC002, "TriggeredReportAnswer", 10), (0xC003, "TriggeredReport", 56),
   (0xC004, "TriggeredReportStopRequest", 8), (0xC005, "TriggeredReportStopAnswer", 10),
   (0xD001, "ConditionReportRequest", 57), (0xD002, "ConditionReportAnswer", 11), (0xD003, "ConditionReport", 48),
   (0xD004, "ConditionReportWithRssi", 52), (0xD011, "ConditionQuickGpsRequest", 9),
   (0xD012, "ConditionQuickGpsAnswer", 11)]

/-- C07: a location message is its documented layout (`LocationProtocol.spec`, offsets from the start of the data). -/
theorem C07_layout (b : Bytes) :
    fromBytes LocationProtocol.read b = (LocationProtocol.spec b 0).map Prod.fst :=
  LocationProtocol.parses.fromBytes b

theorem quickGps_bodyIs (b : Bytes) (q : Nat) : BodyIs LocationProtocol.DataUnion.name [.eof, .unicode] b q "ConditionQuickGpsRequest" 9
    ((LocationProtocol.ConditionQuickGpsRequest.spec b q).as fun x => some (.conditionQuickGpsRequest x)) := by
  refine BodyIs.part (fun _ => rfl) ?_ ?_
  · have : ∀ q, AtLeast q (LocationProtocol.QuickGpsPayload.spec b q) := by
      intro q; unfold LocationProtocol.QuickGpsPayload.spec; at_least []
    unfold LocationProtocol.ConditionQuickGpsRequest.spec
    at_least [this (q + 9)]
  · intro h; exact Fails.upTo_short (by simp) h

theorem location_body (op : Nat) (b : Bytes) (q : Nat) :
    match locationTable.lookup op with
    | none => LocationProtocol.bodySpec op b q = .ok (none, q)
    | some (name, size) => BodyIs LocationProtocol.DataUnion.name [.eof, .unicode] b q name size (LocationProtocol.bodySpec op b q) := by
  have hc := lookup_cases locationTable op
  rcases hc with hc | ⟨h1, hc⟩
  · simp only [locationTable, List.map_cons, List.map_nil, List.mem_cons, List.not_mem_nil, or_false] at hc
    rcases hc with rfl | rfl | rfl | rfl | rfl | rfl | rfl | rfl | rfl | rfl | rfl | rfl | rfl | rfl | rfl | rfl | rfl <;>
      simp only [locationTable, List.lookup, Nat.reduceBEq, LocationProtocol.bodySpec, Nat.reduceEqDiff, if_true, if_false]
    all_goals try exact BodyIs.whole (by simp) (fun _ => rfl)
    · refine BodyIs.part (fun _ => rfl) ?_ ?_
      · unfold LocationProtocol.TriggeredReportRequest.spec; at_least []
      · intro h
        unfold LocationProtocol.TriggeredReportRequest.spec
        refine Fails.upTo (by simp) (Fails.textAt (by simp) (by simp) fun _ _ => Fails.textAt (by simp) (by simp) fun _ _ => Fails.textAt (by simp) (by simp) fun _ h' => ?_)
        omega
    · refine BodyIs.part (fun _ => rfl) ?_ ?_
      · unfold LocationProtocol.TriggeredReport.spec; at_least []
      · intro h
        unfold LocationProtocol.TriggeredReport.spec
        exact Fails.upTo (by simp) (Fails.textAt (by simp) (by simp) fun _ _ => Fails.upTo_short (by simp) h)
    · refine BodyIs.part (fun _ => rfl) ?_ ?_
      · unfold LocationProtocol.ConditionReportRequest.spec; at_least []
      · intro h
        unfold LocationProtocol.ConditionReportRequest.spec
        refine Fails.upTo (by simp) (Fails.textAt (by simp) (by simp) fun _ _ => Fails.textAt (by simp) (by simp) fun _ _ => Fails.textAt (by simp) (by simp) fun _ _ => Fails.textAt (by simp) (by simp) fun _ h' => ?_)
        omega
    · exact quickGps_bodyIs b q
  · rw [h1]
    simp only [locationTable, List.map_cons, List.map_nil, List.mem_cons, List.not_mem_nil, or_false, forall_eq_or_imp,
      forall_eq, ne_eq] at hc
    simp only [LocationProtocol.bodySpec, hc, if_false]

/-- C07: the opcode selects exactly the documented body, which lies inside the data; an opcode without documented
body yields no body. -/
theorem C07_dispatch (b : Bytes) (x : LocationProtocol) (h : fromBytes LocationProtocol.read b = .ok x) :
    match locationTable.lookup (u16be b 0) with
    | none => x.data = none
    | some (name, size) => x.data.map LocationProtocol.DataUnion.name = some name ∧ 4 + size ≤ b.length := by
  rw [C07_layout, LocationProtocol.spec] at h
  simp only [Nat.zero_add] at h
  have hb := location_body (u16be b 0) b 4
  unfold upTo at h
  split at h
  · unfold next at h
    rcases hx : LocationProtocol.bodySpec (u16be b 0) b 4 with _ | ⟨d, e⟩ <;> rw [hx] at h hb
    · cases h
    · simp only at h
      split at h
      · cases h
        rcases hl : locationTable.lookup (u16be b 0) with _ | ⟨name, size⟩ <;> rw [hl] at hb
        · cases hb; rfl
        · have := hb.name d e rfl
          exact ⟨this.1, by omega⟩
      · cases h
  · cases h

set_option maxRecDepth 10000 in
/-- A message of a listed type. -/
example := C07_dispatch [0xA0, 0x01, 0, 8, 0, 0, 0, 1, 10, 0, 0, 80]
  ⟨.known .standard_request, 8, some (.standardRequest ⟨1, ⟨10, 0, 0, 80⟩⟩)⟩ (by decide)

/-- C07: data shorter than the 4 byte header, or whose body is shorter than its documented size, is never decoded:
EOFError (or UnicodeDecodeError for a text in front of the cut that is not valid UTF-8). -/
theorem C07_short (b : Bytes) :
    (b.length < 4 → fromBytes LocationProtocol.read b = .error .eof) ∧
    (∀ name size, locationTable.lookup (u16be b 0) = some (name, size) → b.length < 4 + size →
      fromBytes LocationProtocol.read b = .error .eof ∨ fromBytes LocationProtocol.read b = .error .unicode) ∧
    (4 ≤ b.length → locationTable.lookup (u16be b 0) = none →
      fromBytes LocationProtocol.read b =
        .ok { opcode_header := resolveEnum _ (u16be b 0), message_length := u16be b 2, data := none }) := by
  rw [C07_layout, LocationProtocol.spec]
  simp only [Nat.zero_add]
  have hb := location_body (u16be b 0) b 4
  refine ⟨fun h => by rw [upTo, if_neg (by omega)]; rfl, ?_, ?_⟩
  · intro name size hl hs
    rw [hl] at hb
    obtain ⟨err, he, h⟩ := hb.short hs
    simp only [List.mem_cons, List.not_mem_nil, or_false] at he
    rcases he with rfl | rfl
    · left; rw [h]; unfold upTo next; split <;> rfl
    · by_cases h4 : 4 ≤ b.length
      · right; rw [h, upTo, if_pos h4]; rfl
      · left; rw [upTo, if_neg h4]; rfl
  · intro h4 hl
    rw [hl] at hb
    rw [hb, upTo, if_pos h4, next, if_pos h4]; rfl

/-- A standard request, and one cut short. -/
example : fromBytes LocationProtocol.read [0xA0, 0x01, 0, 8, 0, 0, 0, 1, 10, 0, 0, 80] =
    .ok { opcode_header := .known .standard_request, message_length := 8,
          data := some (.standardRequest { request_id := 1, radio_ip := ⟨10, 0, 0, 80⟩ }) } := by decide
example : fromBytes LocationProtocol.read [0xA0, 0x01, 0, 8, 0, 0, 0, 1, 10, 0, 0] = .error .eof := by decide


/-! ### C09 Telemetry Protocol -/

/-- The name of the body class of a decoded telemetry message. -/
def TelemetryProtocol.DataUnion.name : TelemetryProtocol.DataUnion → String
  | .standardStatusRequest _ => "StandardStatusRequest"
  | .remoteControlAnswer _ => "RemoteControlAnswer"
  | .extendedStatusReport _ => "ExtendedStatusReport"
  | .remoteControlRequest _ => "RemoteControlRequest"
  | .standardStatusReport _ => "StandardStatusReport"

/-- The documented telemetry messages: opcode, body, (least) size of the body. -/
def telemetryTable : List (Nat × String × Nat) :=
  [(0xA001, "StandardStatusRequest", 11), (0xA081, "StandardStatusReport", 12), (0xA082, "ExtendedStatusReport", 14),
   (0xB001, "RemoteControlRequest", 12), (0xB081, "RemoteControlAnswer", 12)]

/-- C09: a telemetry message parsed on its own is its documented layout. -/
theorem C09_layout (b : Bytes) :
    fromBytes TelemetryProtocol.read b = (TelemetryProtocol.spec b 0).map Prod.fst :=
  TelemetryProtocol.parses.fromBytes b

theorem telemetry_body (op : Nat) (b : Bytes) (q : Nat) :
    match telemetryTable.lookup op with
    | none => TelemetryProtocol.bodySpec op b q = .ok (none, q)
    | some (name, size) =>
      BodyIs TelemetryProtocol.DataUnion.name [.eof] b q name size (TelemetryProtocol.bodySpec op b q) := by
  rcases lookup_cases telemetryTable op with hc | ⟨h1, hc⟩
  · simp only [telemetryTable, List.map_cons, List.map_nil, List.mem_cons, List.not_mem_nil, or_false] at hc
    rcases hc with rfl | rfl | rfl | rfl | rfl <;>
      simp only [telemetryTable, List.lookup, Nat.reduceBEq, TelemetryProtocol.bodySpec, Nat.reduceEqDiff, if_true, if_false]
    all_goals try exact BodyIs.whole (by simp) (fun _ => rfl)
    refine BodyIs.part (fun _ => rfl) ?_ ?_
    · have : ∀ q, AtLeast (q + 3) (TelemetryProtocol.VioExtendedStatus.spec b q) := by
        intro q; unfold TelemetryProtocol.VioExtendedStatus.spec; at_least []
      unfold TelemetryProtocol.ExtendedStatusReport.spec
      at_least [this (q + 11)]
    · intro h
      refine Fails.upTo (by simp) ?_
      unfold TelemetryProtocol.VioExtendedStatus.spec
      rw [upTo, if_neg (by omega)]
      exact ⟨_, by simp, rfl⟩
  · rw [h1]
    simp only [telemetryTable, List.map_cons, List.map_nil, List.mem_cons, List.not_mem_nil, or_false, forall_eq_or_imp,
      forall_eq, ne_eq] at hc
    simp only [TelemetryProtocol.bodySpec, hc, if_false]

/-- C09: stand-alone, the 16 bit opcode selects exactly the documented body; other opcodes yield no body; too short
data raise EOFError. -/
theorem C09_dispatch (b : Bytes) :
    (b.length < 4 → fromBytes TelemetryProtocol.read b = .error .eof) ∧
    (∀ name size, telemetryTable.lookup (u16be b 0) = some (name, size) → b.length < 4 + size →
      fromBytes TelemetryProtocol.read b = .error .eof) ∧
    (∀ x, fromBytes TelemetryProtocol.read b = .ok x →
      match telemetryTable.lookup (u16be b 0) with
      | none => x.data = none
      | some (name, size) => x.data.map TelemetryProtocol.DataUnion.name = some name ∧ 4 + size ≤ b.length) := by
  rw [C09_layout, TelemetryProtocol.spec]
  simp only [Nat.zero_add]
  have hb := telemetry_body (u16be b 0) b 4
  refine ⟨fun h => by rw [upTo, if_neg (by omega)]; rfl, ?_, ?_⟩
  · intro name size hl hs
    rw [hl] at hb
    obtain ⟨err, he, h⟩ := hb.short hs
    simp only [List.mem_cons, List.not_mem_nil, or_false] at he
    subst he
    rw [h]; unfold upTo next; split <;> rfl
  · intro x h
    obtain ⟨_, h⟩ := of_map_fst_ok h
    obtain ⟨h4, h⟩ := of_upTo_ok h
    obtain ⟨d, e', hd, he', h⟩ := of_next_ok h
    cases h
    rcases hl : telemetryTable.lookup (u16be b 0) with _ | ⟨name, size⟩ <;> rw [hl, hd] at hb
    · cases hb; rfl
    · have := hb.name d _ rfl
      exact ⟨this.1, by omega⟩

/-- Without a telemetry opcode at the beginning of the data there is no body. -/
theorem telemetry_no_body {b : Bytes} (h : telemetryTable.lookup (u16be b 0) = none) (q : Nat) :
    TelemetryProtocol.spec b q =
      upTo b (q + 4) (.ok ({ service_type_opcode := resolveEnum _ (u8 b q)
                             specific_service_opcode := u8 b (q + 1)
                             message_length := u16be b (q + 2)
                             m_specific_service := resolveEnum _ (u16be b 0)
                             data := none }, q + 4)) := by
  have hb := telemetry_body (u16be b 0) b (q + 4)
  rw [h] at hb
  unfold TelemetryProtocol.spec
  rw [hb]
  unfold upTo next
  split
  · simp only [if_pos ‹_›]
  · rfl

theorem lookup_none_of_first {b : Bytes} (h : u8 b 0 < 0xA0) : telemetryTable.lookup (u16be b 0) = none := by
  rcases lookup_cases telemetryTable (u16be b 0) with hc | ⟨h1, _⟩
  · simp only [telemetryTable, List.map_cons, List.map_nil, List.mem_cons, List.not_mem_nil, or_false, u16be, Nat.zero_add] at hc
    have := u8_lt b 1
    omega
  · exact h1

/-- C09: a telemetry message inside an HDAP frame never gets a body, whatever it contains, and the frame is accepted
only if its 7th byte is 03. -/
theorem C09_in_hdap (b : Bytes) (h : u8 b 0 % 128 = 0x12) :
    fromBytes HyteraDmrApplicationProtocol.read b =
      if b.length < 7 then .error .eof
      else if u8 b 6 = 0x03 then
        .ok { is_reliable_message := decide (128 ≤ u8 b 0)
              message_header := .known .telemetry_protocol
              data := some (.telemetryProtocol
                { service_type_opcode := resolveEnum _ (u8 b 1)
                  specific_service_opcode := u8 b 2
                  message_length := u16be b 3
                  m_specific_service := resolveEnum _ (u16be b 0)
                  data := none })
              checksum := u8 b 5
              message_footer := [0x03] }
      else .error (.validation "/seq/4") := by
  have hlt := u8_lt b 0
  rw [HyteraDmrApplicationProtocol.parses.fromBytes, HyteraDmrApplicationProtocol.spec]
  by_cases h1 : 0 + 1 ≤ b.length
  · have e1 : bitsAt b (8 * 0 + 1) 7 = 0x12 := by rw [bitsAt_byte b 0 1 7 (by omega) (by omega)]; simpa using h
    have hl : telemetryTable.lookup (u16be b 0) = none := lookup_none_of_first (by omega)
    rw [upTo, if_pos h1]
    simp only [e1, HyteraDmrApplicationProtocol.bodySpec, Nat.reduceEqDiff, if_true, if_false, telemetry_no_body hl,
      Nat.zero_add, Nat.reduceAdd]
    by_cases h5 : 5 ≤ b.length
    · rw [upTo, if_pos h5]
      simp only [Parsed.as, next, if_pos h5, fixedAt, List.length_cons, List.length_nil, Nat.zero_add, Nat.reduceAdd]
      by_cases h7 : 7 ≤ b.length
      · have h7' : ¬ b.length < 7 := by omega
        rw [if_pos h7, if_neg h7']
        by_cases hf : u8 b 6 = 0x03
        · rw [if_pos ((slice_one_eq b 6 3 (by omega)).mpr hf), if_pos hf]
          have e2 : flagAt b (8 * 0) = decide (128 ≤ u8 b 0) := by
            have := flagAt_byte b 0 0 (by omega) (by omega)
            rw [Nat.add_zero] at this
            rw [this]
            rw [decide_eq_decide]; simp only [Nat.sub_zero, Nat.reducePow]; omega
          rw [e2]
          rfl
        · rw [if_neg (fun hh => hf ((slice_one_eq b 6 3 (by omega)).mp hh)), if_neg hf]; rfl
      · rw [if_neg h7, if_pos (by omega)]; rfl
    · rw [upTo, if_neg h5, if_pos (by omega)]; rfl
  · rw [upTo, if_neg h1, if_pos (by omega)]; rfl

example := C09_in_hdap [0x12, 0xA0, 0x01, 0, 11, 10, 0x03] (by decide)

/-- The telemetry message inside a decoded HDAP frame, if it carries one. -/
def HyteraDmrApplicationProtocol.telemetry? (x : HyteraDmrApplicationProtocol) : Option TelemetryProtocol :=
  match x.data with
  | some (.telemetryProtocol t) => some t
  | _ => none

theorem hdap_telemetry {b : Bytes} (hl : telemetryTable.lookup (u16be b 0) = none) {q e : Nat}
    {x : HyteraDmrApplicationProtocol} (h : HyteraDmrApplicationProtocol.spec b q = .ok (x, e))
    {t : TelemetryProtocol} (ht : x.telemetry? = some t) : t.data = none := by
  obtain ⟨_, h⟩ := of_upTo_ok h
  obtain ⟨d, e', hd, _, h⟩ := of_next_ok h
  obtain ⟨_, _, h⟩ := of_fixedAt_ok h
  cases h
  simp only [HyteraDmrApplicationProtocol.telemetry?] at ht
  unfold HyteraDmrApplicationProtocol.bodySpec at hd
  repeat' split at hd
  all_goals first
    | (obtain ⟨a, ha, rfl⟩ := of_as_ok hd; simp at ht)
    | (cases hd; simp at ht)
  subst ht
  rw [telemetry_no_body hl] at ha
  obtain ⟨_, ha⟩ := of_upTo_ok ha
  cases ha
  rfl

/-- C09: nor does it get one inside an HRNP packet. -/
theorem C09_in_hrnp (b : Bytes) (x : HyteraRadioNetworkProtocol)
    (h : fromBytes HyteraRadioNetworkProtocol.read b = .ok x) (f : HyteraDmrApplicationProtocol) (hf : x.data = some f)
    (t : TelemetryProtocol) (ht : f.telemetry? = some t) : t.data = none := by
  rw [HyteraRadioNetworkProtocol.parses.fromBytes] at h
  obtain ⟨e, h⟩ := of_map_fst_ok h
  obtain ⟨h1, h2, h⟩ := of_fixedAt_ok h
  obtain ⟨_, h⟩ := of_upTo_ok h
  obtain ⟨d, e', hd, _, h⟩ := of_next_ok h
  cases h
  simp only at hf
  subst hf
  have h0 : u8 b 0 = 0x7e := (slice_one_eq b 0 0x7e (by simp at h1; omega)).mp h2
  unfold optPart at hd
  split at hd
  · obtain ⟨a, ha, he⟩ := of_as_ok hd
    cases he
    exact hdap_telemetry (lookup_none_of_first (by omega)) ha ht
  · cases hd

/-- The elements of a successful `toEnd` are parts of the data. -/
theorem toEnd_mem {f : Bytes → Nat → Parsed α} {b : Bytes} : ∀ (n q : Nat), b.length - q ≤ n → ∀ as e,
    toEnd f b q = .ok (as, e) → ∀ a ∈ as, ∃ q' e', f b q' = .ok (a, e') := by
  intro n
  induction n with
  | zero =>
    intro q hn as e h
    rw [toEnd, if_pos (by omega)] at h
    cases h; intro a ha; simp at ha
  | succ n ih =>
    intro q hn as e h
    rw [toEnd] at h
    split at h
    · cases h; intro a ha; simp at ha
    · rcases hx : f b q with _ | ⟨a, e1⟩ <;> simp only [hx] at h
      · cases h
      · by_cases hc : q < e1 ∧ e1 ≤ b.length
        · rw [dif_pos hc] at h
          rcases hy : toEnd f b e1 with _ | ⟨as', e2⟩ <;> simp only [hy] at h
          · cases h
          · cases h
            intro a' ha'
            rcases List.mem_cons.mp ha' with rfl | ha'
            · exact ⟨q, e1, hx⟩
            · exact ih e1 (by omega) _ _ hy a' ha'
        · rw [dif_neg hc] at h; cases h

/-- C09: nor inside any of the frames of an HSTRP packet. -/
theorem C09_in_hstrp (b : Bytes) (x : HyteraSimpleTransportReliabilityProtocol)
    (h : fromBytes HyteraSimpleTransportReliabilityProtocol.read b = .ok x) (fs : List HyteraDmrApplicationProtocol)
    (hfs : x.data = some fs) (f : HyteraDmrApplicationProtocol) (hf : f ∈ fs)
    (t : TelemetryProtocol) (ht : f.telemetry? = some t) : t.data = none := by
  rw [HyteraSimpleTransportReliabilityProtocol.parses.fromBytes] at h
  obtain ⟨e, h⟩ := of_map_fst_ok h
  obtain ⟨h1, h2, h⟩ := of_fixedAt_ok h
  obtain ⟨_, h⟩ := of_upTo_ok h
  obtain ⟨o, e1, _, _, h⟩ := of_next_ok h
  obtain ⟨d, e2, hd, _, h⟩ := of_next_ok h
  cases h
  simp only at hfs
  subst hfs
  have h0 : u8 b 0 = 0x32 := by
    have h1' : 2 ≤ b.length := by simpa using h1
    have := congrArg (fun l => u8 l 0) h2
    simp only [List.length_cons, List.length_nil, Nat.zero_add, Nat.reduceAdd] at this
    rw [u8_slice _ _ _ _ (by omega)] at this
    exact this
  unfold optPart at hd
  split at hd
  · obtain ⟨a, ha, he⟩ := of_as_ok hd
    cases he
    obtain ⟨q', e', hq⟩ := toEnd_mem _ _ (Nat.le_refl _) _ _ ha f hf
    exact hdap_telemetry (lookup_none_of_first (by omega)) hq ht
  · cases hd

/-- The same status request on its own and in a frame. -/
example : (fromBytes TelemetryProtocol.read [0xA0, 0x01, 0, 11, 10, 0, 0, 1, 10, 0, 0, 2, 0, 0, 1]).map
    (fun x => x.data.map TelemetryProtocol.DataUnion.name) = .ok (some "StandardStatusRequest") := by decide
example : fromBytes HyteraDmrApplicationProtocol.read [0x12, 0xA0, 0x01, 0, 11, 10, 0, 0, 1, 10, 0, 0, 2, 0, 0, 1, 0x77, 0x03] =
    .error (.validation "/seq/4") := by decide
example : (fromBytes HyteraDmrApplicationProtocol.read [0x12, 0xA0, 0x01, 0, 11, 10, 0x03]).map
    (fun x => x.telemetry?.map TelemetryProtocol.data) = .ok (some none) := by decide
/-- Beside `C09_in_hrnp`: an HRNP data packet with a (body-less) telemetry status request in it; the opcode DATA is 0. -/
example : ((fromBytes HyteraRadioNetworkProtocol.read ([0x7E, 4, 0, 0, 0x20, 0x10, 0, 0, 0, 19, 0, 0] ++
    [0x12, 0xA0, 0x01, 0, 11, 10, 3])).map
    (fun x => x.data.map fun f => f.telemetry?.map TelemetryProtocol.data)).toOption = some (some (some none)) := by decide +kernel

end Dmr.Hytera
