import Verif.Spec.Homebrew
/-
Where the parts of the variable-size Homebrew / MMDVM messages lie (see `Verif/Spec/HyteraVar.lean` for the
style). `q` is the offset of the command data, i.e. 4 for a packet; the prefix is at 0.
-/

namespace Dmr.Homebrew

/-- A fixed continuation of the command prefix followed by a 32 bit big-endian number. -/
def magicThenId (v : Bytes) (path : String) (mk : Bytes → Nat → α) (b : Bytes) (q : Nat) : Parsed α :=
  fixedAt b q v path <|
  upTo b (q + v.length + 4) <|
  .ok (mk v (u32be b (q + v.length)), q + v.length + 4)

/-! ### Homebrew 2015 -/

/-- `MSTPING` and the repeater id. -/
def Homebrew2015.TypeMasterPing.spec : Bytes → Nat → Parsed Homebrew2015.TypeMasterPing :=
  magicThenId [0x49, 0x4e, 0x47] "/types/type_master_ping/seq/0" fun m id => { magic := m, repeater_id := id }

/-- `RPTPONG` and the repeater id. -/
def Homebrew2015.TypeRepeaterPong.spec : Bytes → Nat → Parsed Homebrew2015.TypeRepeaterPong :=
  magicThenId [0x4f, 0x4e, 0x47] "/types/type_repeater_pong/seq/0" fun m id => { magic := m, repeater_id := id }

/-- `RPTCL` and the repeater id. -/
def Homebrew2015.TypeRepeaterClosing.spec : Bytes → Nat → Parsed Homebrew2015.TypeRepeaterClosing :=
  magicThenId [0x4c] "/types/type_repeater_closing/seq/0" fun m id => { magic := m, repeater_id := id }

/-- `MSTNAK` and the repeater id. -/
def Homebrew2015.TypeMasterNotAccept.spec : Bytes → Nat → Parsed Homebrew2015.TypeMasterNotAccept :=
  magicThenId [0x41, 0x4b] "/types/type_master_not_accept/seq/0" fun m id => { magic := m, repeater_id := id }

/-- `MSTCL` and the repeater id. -/
def Homebrew2015.TypeMasterClosing.spec : Bytes → Nat → Parsed Homebrew2015.TypeMasterClosing :=
  magicThenId [0x4c] "/types/type_master_closing/seq/0" fun m id => { magic := m, repeater_id := id }

/-- `MSTACK`, the repeater id and, if the data go on, a 32 bit random number. -/
def Homebrew2015.TypeMasterRepeaterAck.spec (b : Bytes) (q : Nat) : Parsed Homebrew2015.TypeMasterRepeaterAck :=
  fixedAt b q [0x43, 0x4b] "/types/type_master_repeater_ack/seq/0" <|
  upTo b (q + 6) <|
  next b (optPart (q + 6 < b.length) (whole 4 u32be b (q + 6)) (q + 6)) fun random_number e =>
  .ok ({ magictype_master_repeater_ack := [0x43, 0x4b], repeater_id := u32be b (q + 2), random_number }, e)

/-- Repeater configuration: 32 bit id, ASCII columns of fixed width, and all the rest as ASCII. -/
def Homebrew2015.TypeRepeaterConfiguration.spec (b : Bytes) (q : Nat) : Parsed Homebrew2015.TypeRepeaterConfiguration :=
  upTo b (q + 4) <|
  textAt decodeAscii b (q + 4) 8 fun call_sign =>
  textAt decodeAscii b (q + 12) 9 fun rx_freq =>
  textAt decodeAscii b (q + 21) 9 fun tx_freq =>
  textAt decodeAscii b (q + 30) 2 fun tx_power =>
  textAt decodeAscii b (q + 32) 2 fun color_code =>
  textAt decodeAscii b (q + 34) 8 fun latitude =>
  textAt decodeAscii b (q + 42) 9 fun longitude =>
  textAt decodeAscii b (q + 51) 3 fun antenna_height_above_ground =>
  textAt decodeAscii b (q + 54) 20 fun location =>
  textAt decodeAscii b (q + 74) 20 fun description =>
  textAt decodeAscii b (q + 94) 124 fun url =>
  textAt decodeAscii b (q + 218) 40 fun software_id =>
  textAt decodeAscii b (q + 258) 40 fun package_id =>
  decoded (decodeAscii (b.drop (q + 298))) fun unparsed_data =>
  .ok ({ repeater_id := u32be b q, call_sign, rx_freq, tx_freq, tx_power, color_code, latitude, longitude, antenna_height_above_ground, location, description, url, software_id, package_id, unparsed_data }, b.length)

/-- `RPTC`: the fifth byte of the whole packet (which is the first byte of the repeater id of a configuration)
decides between closing (`L`) and configuration. -/
def Homebrew2015.TypeRepeaterConfigurationOrClosing.spec (b : Bytes) (q : Nat) :
    Parsed Homebrew2015.TypeRepeaterConfigurationOrClosing :=
  upTo b 5 <|
  if 128 ≤ u8 b 4 then .error .unicode
  else if u8 b 4 = 0x4c then (TypeRepeaterClosing.spec b q).as fun x => ⟨.typeRepeaterClosing x⟩
  else (TypeRepeaterConfiguration.spec b q).as fun x => ⟨.typeRepeaterConfiguration x⟩

/-- DMR data: 49 bytes, then one byte of bit error rate and one byte of RSSI, each only if the data go on. -/
def Homebrew2015.TypeDmrData.spec (b : Bytes) (q : Nat) : Parsed Homebrew2015.TypeDmrData :=
  upTo b (q + 49) <|
  next b (optPart (q + 49 < b.length) (whole 1 u8 b (q + 49)) (q + 49)) fun bit_error_rate e =>
  next b (optPart (e < b.length) (whole 1 u8 b e) e) fun rssi e' =>
  .ok ({ sequence_no := u8 b q
         source_id := bitsAt b (8 * q + 8) 24
         target_id := bitsAt b (8 * q + 32) 24
         repeater_id := u32be b (q + 7)
         slot_no := resolveEnum _ (bitsAt b (8 * q + 88) 1)
         call_type := resolveEnum _ (bitsAt b (8 * q + 89) 1)
         frame_type := resolveEnum _ (bitsAt b (8 * q + 90) 2)
         data_type := bitsAt b (8 * q + 92) 4
         stream_id := u32be b (q + 12)
         dmr_data := slice b (q + 16) 33
         bit_error_rate, rssi }, e')

/-- Repeater options: 32 bit id and all the rest as ASCII. -/
def Homebrew2015.TypeRepeaterOptions.spec (b : Bytes) (q : Nat) : Parsed Homebrew2015.TypeRepeaterOptions :=
  upTo b (q + 4) <|
  decoded (decodeAscii (b.drop (q + 4))) fun options =>
  .ok ({ repeater_id := u32be b q, options }, b.length)

/-- Command data by command prefix. -/
def Homebrew2015.bodySpec (command : PyStr) (b : Bytes) (q : Nat) : Parsed (Option Homebrew2015.CommandDataUnion) :=
  if command = "RPTL".toList then (whole 4 TypeRepeaterLoginRequest.spec b q).as fun x => some (.typeRepeaterLoginRequest x)
  else if command = "MSTA".toList then (TypeMasterRepeaterAck.spec b q).as fun x => some (.typeMasterRepeaterAck x)
  else if command = "RPTK".toList then (whole 36 TypeRepeaterLoginResponse.spec b q).as fun x => some (.typeRepeaterLoginResponse x)
  else if command = "RPTC".toList then (TypeRepeaterConfigurationOrClosing.spec b q).as fun x => some (.typeRepeaterConfigurationOrClosing x)
  else if command = "DMRD".toList then (TypeDmrData.spec b q).as fun x => some (.typeDmrData x)
  else if command = "MSTC".toList then (TypeMasterClosing.spec b q).as fun x => some (.typeMasterClosing x)
  else if command = "RPTP".toList then (TypeRepeaterPong.spec b q).as fun x => some (.typeRepeaterPong x)
  else if command = "MSTP".toList then (TypeMasterPing.spec b q).as fun x => some (.typeMasterPing x)
  else if command = "MSTN".toList then (TypeMasterNotAccept.spec b q).as fun x => some (.typeMasterNotAccept x)
  else .ok (none, q)

/-- Packet: 4 characters of command prefix, then the command data. -/
def Homebrew2015.spec (b : Bytes) (q : Nat) : Parsed Homebrew2015 :=
  textAt decodeUtf8 b q 4 fun command_prefix =>
  next b (bodySpec command_prefix b (q + 4)) fun command_data e =>
  .ok ({ command_prefix, command_data }, e)

/-! ### MMDVM 2020 -/

/-- `MSTPONG` and the repeater id. -/
def Mmdvm2020.TypeMasterPong.spec : Bytes → Nat → Parsed Mmdvm2020.TypeMasterPong :=
  magicThenId [0x4f, 0x4e, 0x47] "/types/type_master_pong/seq/0" fun m id => { magic := m, repeater_id := id }

/-- `RPTPING` and the repeater id. -/
def Mmdvm2020.TypeRepeaterPing.spec : Bytes → Nat → Parsed Mmdvm2020.TypeRepeaterPing :=
  magicThenId [0x49, 0x4e, 0x47] "/types/type_repeater_ping/seq/0" fun m id => { magic := m, repeater_id := id }

/-- `RPTCL` and the repeater id. -/
def Mmdvm2020.TypeRepeaterClosing.spec : Bytes → Nat → Parsed Mmdvm2020.TypeRepeaterClosing :=
  magicThenId [0x4c] "/types/type_repeater_closing/seq/0" fun m id => { magic := m, repeater_id := id }

/-- `MSTNAK` and the repeater id. -/
def Mmdvm2020.TypeMasterNotAccept.spec : Bytes → Nat → Parsed Mmdvm2020.TypeMasterNotAccept :=
  magicThenId [0x41, 0x4b] "/types/type_master_not_accept/seq/0" fun m id => { magic := m, repeater_id := id }

/-- `MSTCL` and the repeater id. -/
def Mmdvm2020.TypeMasterClosing.spec : Bytes → Nat → Parsed Mmdvm2020.TypeMasterClosing :=
  magicThenId [0x4c] "/types/type_master_closing/seq/0" fun m id => { magic := m, repeater_id := id }

/-- `RPTACK` and the repeater id or challenge. -/
def Mmdvm2020.TypeMasterRepeaterAck.spec : Bytes → Nat → Parsed Mmdvm2020.TypeMasterRepeaterAck :=
  magicThenId [0x43, 0x4b] "/types/type_master_repeater_ack/seq/0" fun m id => { magic := m, repeater_id_or_challenge := id }

/-- Talker alias: 24 bit radio id, block number, 8 ASCII characters. -/
def Mmdvm2020.TypeTalkerAlias.spec (b : Bytes) (q : Nat) : Parsed Mmdvm2020.TypeTalkerAlias :=
  upTo b (q + 4) <|
  textAt decodeAscii b (q + 4) 8 fun talker_alias =>
  .ok ({ radio_id := bitsAt b (8 * q) 24
         talker_alias_type := resolveEnum _ (u8 b (q + 3))
         talker_alias }, q + 12)

/-- Beacon: nothing after the prefix. -/
def Mmdvm2020.TypeRepeaterBeacon.spec (_ : Bytes) (q : Nat) : Parsed Mmdvm2020.TypeRepeaterBeacon := .ok ({}, q)

/-- Unknown data: all the rest (never reached from a packet). -/
def Mmdvm2020.TypeUnknown.spec (b : Bytes) (q : Nat) : Parsed Mmdvm2020.TypeUnknown := .ok (⟨b.drop q⟩, b.length)

/-- Repeater configuration: 32 bit id, ASCII columns of fixed width, and all the rest as ASCII. -/
def Mmdvm2020.TypeRepeaterConfiguration.spec (b : Bytes) (q : Nat) : Parsed Mmdvm2020.TypeRepeaterConfiguration :=
  upTo b (q + 4) <|
  textAt decodeAscii b (q + 4) 8 fun call_sign =>
  textAt decodeAscii b (q + 12) 9 fun rx_freq =>
  textAt decodeAscii b (q + 21) 9 fun tx_freq =>
  textAt decodeAscii b (q + 30) 2 fun tx_power =>
  textAt decodeAscii b (q + 32) 2 fun color_code =>
  textAt decodeAscii b (q + 34) 8 fun latitude =>
  textAt decodeAscii b (q + 42) 9 fun longitude =>
  textAt decodeAscii b (q + 51) 3 fun antenna_height_above_ground =>
  textAt decodeAscii b (q + 54) 20 fun location =>
  textAt decodeAscii b (q + 74) 19 fun description =>
  textAt decodeAscii b (q + 93) 1 fun slots =>
  textAt decodeAscii b (q + 94) 124 fun url =>
  textAt decodeAscii b (q + 218) 40 fun software_id =>
  textAt decodeAscii b (q + 258) 40 fun package_id =>
  decoded (decodeAscii (b.drop (q + 298))) fun unparsed_data =>
  .ok ({ repeater_id := u32be b q, call_sign, rx_freq, tx_freq, tx_power, color_code, latitude, longitude, antenna_height_above_ground, location, description, slots, url, software_id, package_id, unparsed_data }, b.length)

/-- `RPTC`: the fifth byte of the whole packet (which is the first byte of the repeater id of a configuration)
decides between closing (`L`) and configuration. -/
def Mmdvm2020.TypeRepeaterConfigurationOrClosing.spec (b : Bytes) (q : Nat) :
    Parsed Mmdvm2020.TypeRepeaterConfigurationOrClosing :=
  upTo b 5 <|
  if 128 ≤ u8 b 4 then .error .unicode
  else if u8 b 4 = 0x4c then (TypeRepeaterClosing.spec b q).as fun x => ⟨.typeRepeaterClosing x⟩
  else (TypeRepeaterConfiguration.spec b q).as fun x => ⟨.typeRepeaterConfiguration x⟩

/-- DMR data: 49 bytes, then one byte of bit error rate and one byte of RSSI, each only if the data go on. -/
def Mmdvm2020.TypeDmrData.spec (b : Bytes) (q : Nat) : Parsed Mmdvm2020.TypeDmrData :=
  upTo b (q + 49) <|
  next b (optPart (q + 49 < b.length) (whole 1 u8 b (q + 49)) (q + 49)) fun bit_error_rate e =>
  next b (optPart (e < b.length) (whole 1 u8 b e) e) fun rssi e' =>
  .ok ({ sequence_no := u8 b q
         source_id := bitsAt b (8 * q + 8) 24
         target_id := bitsAt b (8 * q + 32) 24
         repeater_id := u32be b (q + 7)
         slot_no := resolveEnum _ (bitsAt b (8 * q + 88) 1)
         call_type := resolveEnum _ (bitsAt b (8 * q + 89) 1)
         frame_type := resolveEnum _ (bitsAt b (8 * q + 90) 2)
         data_type := bitsAt b (8 * q + 92) 4
         stream_id := u32be b (q + 12)
         dmr_data := slice b (q + 16) 33
         bit_error_rate, rssi }, e')

/-- Repeater options: 32 bit id and all the rest as ASCII. -/
def Mmdvm2020.TypeRepeaterOptions.spec (b : Bytes) (q : Nat) : Parsed Mmdvm2020.TypeRepeaterOptions :=
  upTo b (q + 4) <|
  decoded (decodeAscii (b.drop (q + 4))) fun options =>
  .ok ({ repeater_id := u32be b q, options }, b.length)

/-- Command data by command prefix. -/
def Mmdvm2020.bodySpec (command : PyStr) (b : Bytes) (q : Nat) : Parsed (Option Mmdvm2020.CommandDataUnion) :=
  if command = "RPTL".toList then (whole 4 TypeRepeaterLoginRequest.spec b q).as fun x => some (.typeRepeaterLoginRequest x)
  else if command = "DMRG".toList then (whole 10 TypeRadioPosition.spec b q).as fun x => some (.typeRadioPosition x)
  else if command = "RPTA".toList then (TypeMasterRepeaterAck.spec b q).as fun x => some (.typeMasterRepeaterAck x)
  else if command = "RPTK".toList then (whole 36 TypeRepeaterLoginResponse.spec b q).as fun x => some (.typeRepeaterLoginResponse x)
  else if command = "RPTC".toList then (TypeRepeaterConfigurationOrClosing.spec b q).as fun x => some (.typeRepeaterConfigurationOrClosing x)
  else if command = "DMRD".toList then (TypeDmrData.spec b q).as fun x => some (.typeDmrData x)
  else if command = "MSTC".toList then (TypeMasterClosing.spec b q).as fun x => some (.typeMasterClosing x)
  else if command = "RPTP".toList then (TypeRepeaterPing.spec b q).as fun x => some (.typeRepeaterPing x)
  else if command = "RPTO".toList then (TypeRepeaterOptions.spec b q).as fun x => some (.typeRepeaterOptions x)
  else if command = "MSTP".toList then (TypeMasterPong.spec b q).as fun x => some (.typeMasterPong x)
  else if command = "RPTS".toList then (TypeRepeaterBeacon.spec b q).as fun x => some (.typeRepeaterBeacon x)
  else if command = "MSTN".toList then (TypeMasterNotAccept.spec b q).as fun x => some (.typeMasterNotAccept x)
  else if command = "DMRA".toList then (TypeTalkerAlias.spec b q).as fun x => some (.typeTalkerAlias x)
  else .ok (none, q)

/-- Packet: 4 characters of command prefix, then the command data. -/
def Mmdvm2020.spec (b : Bytes) (q : Nat) : Parsed Mmdvm2020 :=
  textAt decodeAscii b q 4 fun command_prefix =>
  next b (bodySpec command_prefix b (q + 4)) fun command_data e =>
  .ok ({ command_prefix, command_data }, e)

end Dmr.Homebrew
