/-! ### Asserted values -/

section
open Hytera

/-- okdmr/tests/kaitai/hytera/test_radio_ip.py:4-17 -/
def checkRadioIp (b : Bytes) (subnet id : Nat) (ip : String) : Bool :=
  match fromBytes RadioIp.read b with
  | .ok x => x.subnet == subnet && x.radio_id == id && x.radio_ip == ip.toList
  | .error _ => false

example : checkRadioIp hex"0a000001" 10 1 "10.0.0.1" = true := by decide +kernel
example : checkRadioIp hex"0a000050" 10 80 "10.0.0.80" = true := by decide +kernel
example : checkRadioIp hex"5001172D" 80 71469 "80.1.23.45" = true := by decide +kernel
example : checkRadioIp hex"500C2238" 80 795192 "80.12.34.56" = true := by decide +kernel
example : checkRadioIp hex"0a0a0001" 10 655361 "10.10.0.1" = true := by decide +kernel
example : checkRadioIp hex"0a2110dd" 10 2167005 "10.33.16.221" = true := by decide +kernel

/-- okdmr/tests/kaitai/hytera/test_location_protocol.py:29-60 `test_parse_standard_answer` -/
example : (match fromBytes LocationProtocol.read hex"a0020032200000010a03640e0000413136323232333331313031384e343733362e363937374530303733392e32363830302e303030358903" with
    | .ok { opcode_header := h, data := some (.standardAnswer x), .. } =>
      decide (h = .known .standard_answer ∧ x.result = .known .ok ∧ x.radio_ip.subnet = 10 ∧
        x.gpsdata = { gps_status := bytes"A", gps_time := bytes"162223", gps_date := bytes"311018", north_south := bytes"N", latitude := bytes"4736.6977", east_west := bytes"E", longitude := bytes"00739.2680", speed := bytes"0.0", direction := bytes"005" })
    | _ => false) = true := by decide +kernel

/-- okdmr/tests/kaitai/hytera/test_location_protocol.py:63-98 `test_parse_condition_report_rssi` -/
example : (match fromBytes LocationProtocol.read hex"d0040034000015c80a0000030000413138343033303036313232314e343732342e303135384530303733312e31303733302e30323037ffc66303" with
    | .ok { opcode_header := h, data := some (.conditionReportWithRssi x), .. } =>
      decide (h = .known .condition_report_with_rssi ∧ x.result = .known .ok ∧ x.radio_ip.subnet = 10 ∧
        x.gpsdata = { gps_status := bytes"A", gps_time := bytes"184030", gps_date := bytes"061221", north_south := bytes"N", latitude := bytes"4724.0158", east_west := bytes"E", longitude := bytes"00731.1073", speed := bytes"0.0", direction := bytes"207" })
    | _ => false) = true := by decide +kernel

/-- okdmr/tests/kaitai/hytera/test_location_protocol.py:34-38,68-75 property `opcode` -/
example : (LocationProtocol.computeOpcode (Stream.new hex"a0020032")).1 = .ok (.known .standard_location_immediate_service) ∧
    (LocationProtocol.computeOpcode (Stream.new hex"d0040034")).1 = .ok (.known .condition_triggered_reporting_service) := by decide +kernel

/-- okdmr/tests/kaitai/hytera/test_rcp.py:12-16 -/
example : fromBytes RadioControlProtocol.read hex"040005006400000001" =
    .ok { service_type := .known .radio_identification_request, message_length := 5, data := .genericData { data := hex"6400000001" } } := by decide +kernel

end

section
open Etsi

/-- okdmr/tests/kaitai/etsi/test_full_link_control.py:5-14 -/
example : (match fromBytes FullLinkControl.read hex"000000000009280722504778" with
    | .ok { specific_data := some (.groupVoiceChannelUser x), crc_checksum := c, cs5_checksum := d, .. } =>
      decide (x.group_address = 9 ∧ x.source_address = 2623266 ∧ c = some bytes"PGx" ∧ d = none)
    | _ => false) = true := by decide +kernel

/-- okdmr/tests/kaitai/etsi/test_full_link_control.py:17-29 -/
example : (match fromBytes FullLinkControl.read hex"00000000086520baf888" with
    | .ok { full_link_control_opcode := o, feature_set_id := f, specific_data := some (.groupVoiceChannelUser x), crc_checksum := c, cs5_checksum := d, .. } =>
      decide (o = .known .group_voice ∧ f = .known .standardized_ts_102_361_2 ∧ x.group_address = 2149 ∧ x.source_address = 2145016 ∧
        x.service_options = 0 ∧ c = none ∧ d ≠ none)
    | _ => false) = true := by decide +kernel

end

section
open Homebrew

/-- okdmr/tests/kaitai/homebrew/test_mmdvm.py:8-13 -/
example : fromBytes Mmdvm2020.read hex"444d524100066b0c2337fa00cc004f004b0034" = .error .unicode := by decide +kernel

end

section
open Motorola MotorolaUtils

/-- okdmr/tests/kaitai/motorola/test_ars.py:11-32 -/
example : (match fromBytes AutomaticRegistrationService.read hex"000cf0200732333038303934000000" with
    | .ok { message_size := n, message_header := h, pdu_content := some (.deviceRegistrationMessage x), .. } =>
      decide (n = 3072 ∧ h = { extension_bit := true, acknowledgement_bit := true, priority := true, control_user_bit := true, pdu_type := 0 } ∧
        x = { device_registration_message_header := some { extension_bit := false, event := .known .initial_event, encoding := 0 }, len_device_identifier := 7, device_identifier := some bytes"2308094", len_user_identifier := 0, user_identifier := none, len_password := 0, password := none })
    | _ => false) = true := by decide +kernel

/-- okdmr/tests/kaitai/motorola/test_message_protocol.py:8-32 -/
example : (match fromBytes TextMessageProtocol.read hex"0010e00093040d000a00410048004f004a00" with
    | .ok { message_size := n, message_header := h, len_address := l, pdu_content := some (.textMessage x), .. } =>
      decide (n = 16 ∧ l = 0 ∧ h = { extension_bit := true, acknowledgement_required := true, reserved := true, control_user_bit := false, pdu_type := 0 } ∧
        x = { text_message_header_sequence_and_encoding := some { has_encoding_header := true, reserved_1 := 0, sequence_number_lsb_bits := 19, header_encoding_extension := some false, sequence_number_msb_bits := some 0, encoding := 4 }, text_message := ['\r', '\n', 'A', 'H', 'O', 'J'] })
    | _ => false) = true := by decide +kernel

/-- okdmr/tests/kaitai/motorola/test_mbxml.py:11-17 -/
example : (fromBytes MotorolaBinaryXml.Uintvar.read hex"25").map (uintvar_to_int ·.payload) = .ok 0x25 ∧
    (fromBytes MotorolaBinaryXml.Uintvar.read hex"8120").map (uintvar_to_int ·.payload) = .ok 0xA0 ∧
    (fromBytes MotorolaBinaryXml.Uintvar.read hex"828F25").map (uintvar_to_int ·.payload) = .ok 0x87A5 := by decide +kernel

/-- okdmr/tests/kaitai/motorola/test_mbxml.py:20-29 -/
example : (fromBytes MotorolaBinaryXml.Sintvar.read hex"65").map (sintvar_to_int ·.payload) = .ok (.ok (-0x25)) ∧
    (fromBytes MotorolaBinaryXml.Sintvar.read hex"C120").map (sintvar_to_int ·.payload) = .ok (.ok (-0xA0)) := by decide +kernel

/-- okdmr/tests/kaitai/motorola/test_mbxml.py:73-84 -/
example : (fromBytes MotorolaBinaryXml.read hex"050822042468ace05162").map (·.documents.map (·.document_id)) =
    .ok [.known .lrrp_immediate_request_ncdt] := by decide +kernel

end
