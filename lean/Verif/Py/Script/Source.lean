import Verif.Py.Script.Syntax
/-
Generated by tools/mkscript.py from okdmr/kaitai/motorola/motorola_utils.py, okdmr/kaitai/tools/*.py and pyproject.toml: these files as data.
-/

set_option autoImplicit false

namespace Dmr.Script.Source

/-- okdmr/kaitai/motorola/motorola_utils.py:4-8 `uintvar_to_int`. -/
def motorola_utils_uintvar_to_int : Function :=
  { params := [("payload", none)]
    body := [.assign (.name "_out") (.int 0),
              .for_ "single" (.name "payload") [.assign (.name "_out") (.bin .add (.bin .shl (.name "_out") (.int 7)) (.bin .band (.name "single") (.int 127)))],
              .return_ (.name "_out")] }

/-- okdmr/kaitai/motorola/motorola_utils.py:11-12 `clear_msb`. -/
def motorola_utils_clear_msb : Function :=
  { params := [("dirty", none)]
    body := [.return_ (.call (.global "int") [.bin .add (.str "0") (.slice (.call (.global "bin") [.name "dirty"] []) (.int 3) .none .none), .int 2] [])] }

/-- okdmr/kaitai/motorola/motorola_utils.py:15-20 `sintvar_to_int`. -/
def motorola_utils_sintvar_to_int : Function :=
  { params := [("payload", none)]
    body := [.assign (.name "_out") (.call (.func "motorola_utils.clear_msb") [.call (.func "motorola_utils.uintvar_to_int") [.name "payload"] []] []),
              .assign (.name "_is_negative") (.cmp .gt (.bin .band (.index (.name "payload") (.int 0)) (.int 64)) (.int 0)),
              .return_ (.ifExp (.name "_is_negative") (.neg (.name "_out")) (.name "_out"))] }

/-- okdmr/kaitai/motorola/motorola_utils.py:23-26 `ufloatvar_to_float`. -/
def motorola_utils_ufloatvar_to_float : Function :=
  { params := [("int_part", none), ("fraction_part", none)]
    body := [.return_ (.bin .add (.call (.func "motorola_utils.uintvar_to_int") [.name "int_part"] []) (.bin .div (.call (.func "motorola_utils.uintvar_to_int") [.name "fraction_part"] []) (.bin .pow (.int 128) (.call (.global "len") [.name "fraction_part"] []))))] }

/-- okdmr/kaitai/motorola/motorola_utils.py:29-34 `sfloatvar_to_float`. -/
def motorola_utils_sfloatvar_to_float : Function :=
  { params := [("sint_part", none), ("fraction_part", none)]
    body := [.assign (.name "_out") (.bin .add (.call (.func "motorola_utils.clear_msb") [.call (.func "motorola_utils.uintvar_to_int") [.name "sint_part"] []] []) (.bin .div (.call (.func "motorola_utils.uintvar_to_int") [.name "fraction_part"] []) (.bin .pow (.int 128) (.call (.global "len") [.name "fraction_part"] [])))),
              .assign (.name "_is_negative") (.cmp .gt (.bin .band (.index (.name "sint_part") (.int 0)) (.int 64)) (.int 0)),
              .return_ (.ifExp (.name "_is_negative") (.neg (.name "_out")) (.name "_out"))] }

/-- okdmr/kaitai/tools/byteswap.py:1-7 `byteswap_bytearray`. -/
def byteswap_byteswap_bytearray : Function :=
  { params := [("data", none)]
    body := [.assign (.name "trim") (.bin .sub (.call (.global "len") [.name "data"] []) (.int 1)),
              .if_ (.cmp .ne (.bin .mod (.call (.global "len") [.name "data"] []) (.int 2)) (.int 0)) [.expr (.call (.attr (.name "data") "append") [.int 0] [])] [],
              .assign (.tuple [.slice (.name "data") (.int 0) .none (.int 2), .slice (.name "data") (.int 1) .none (.int 2)]) (.tuple [.slice (.name "data") (.int 1) .none (.int 2), .slice (.name "data") (.int 0) .none (.int 2)]),
              .return_ (.call (.global "bytes") [.slice (.name "data") .none (.name "trim") .none] [])] }

/-- okdmr/kaitai/tools/byteswap.py:10-11 `byteswap_bytes`. -/
def byteswap_byteswap_bytes : Function :=
  { params := [("data", none)]
    body := [.return_ (.call (.func "byteswap.byteswap_bytearray") [.call (.global "bytearray") [.name "data"] []] [])] }

/-- okdmr/kaitai/tools/prettyprint.py:6-7 `prettyprint`. -/
def prettyprint_prettyprint : Function :=
  { params := [("data", none), ("stream", some .none)]
    body := [.expr (.call (.global "pprint") [.call (.func "prettyprint._prettyprint") [.name "data"] []] [("stream", .name "stream")])] }

/-- okdmr/kaitai/tools/prettyprint.py:10-20 `_array_prettyprint`. -/
def prettyprint__array_prettyprint : Function :=
  { params := [("data", none)]
    body := [.return_ (.call (.global "list") [.call (.global "map") [.lam "x" (.ifExp (.call (.global "isinstance") [.name "x", .global "KaitaiStruct"] []) (.call (.func "prettyprint._prettyprint") [.name "x"] []) (.ifExp (.call (.global "isinstance") [.name "x", .global "list"] []) (.call (.func "prettyprint._array_prettyprint") [.name "x"] []) (.name "x"))), .name "data"] []] [])] }

/-- okdmr/kaitai/tools/prettyprint.py:23-36 `_prettyprint`. -/
def prettyprint__prettyprint : Function :=
  { params := [("data", none)]
    body := [.assign (.name "acceptable_items") (.dictComp (.name "key") (.name "value") "key" "value" (.call (.attr (.attr (.name "data") "__dict__") "items") [] []) (.cmp .notIn (.name "key") (.list [.str "_io", .str "_parent", .str "_root", .str "_debug"]))),
              .return_ (.dictComp (.name "key") (.ifExp (.call (.global "isinstance") [.name "value", .global "KaitaiStruct"] []) (.call (.func "prettyprint._prettyprint") [.name "value"] []) (.ifExp (.call (.global "isinstance") [.name "value", .global "list"] []) (.call (.func "prettyprint._array_prettyprint") [.name "value"] []) (.name "value"))) "key" "value" (.call (.attr (.name "acceptable_items") "items") [] []) (.bool true))] }

/-- okdmr/kaitai/tools/debug.py:13-18 `ProtocolDebug._args`. -/
def debug_ProtocolDebug__args : Function :=
  { params := [("protocol", none)]
    body := [.assign (.name "parser") (.call (.global "ArgumentParser") [] [("description", .str "Debug packet")]),
              .expr (.call (.attr (.name "parser") "add_argument") [.str "hex"] [("type", .global "str"), ("nargs", .str "+"), ("help", .format [.str "Hex encoded messages of ", .name "protocol"])]),
              .return_ (.name "parser")] }

/-- okdmr/kaitai/tools/debug.py:21-39 `ProtocolDebug._impl`. -/
def debug_ProtocolDebug__impl : Function :=
  { params := [("protocol", none), ("kaitai", none), ("arguments", some .none)]
    body := [.assign (.name "args") (.call (.attr (.call (.attr (.script "debug.ProtocolDebug") "_args") [] [("protocol", .name "protocol")]) "parse_args") [.ifExp (.or (.not (.name "arguments")) (.not (.call (.global "len") [.name "arguments"] []))) (.slice (.attr (.global "sys") "argv") (.int 1) .none .none) (.name "arguments")] []),
              .for_ "hex_msg" (.attr (.name "args") "hex") [.assign (.name "ars") (.call (.attr (.name "kaitai") "from_bytes") [.call (.attr (.global "bytes") "fromhex") [.name "hex_msg"] []] []),
                .if_ (.call (.global "isinstance") [.name "ars", .cls "Hytera.IpSiteConnectProtocol"] []) [.expr (.call (.global "getattr") [.name "ars", .str "source_radio_id"] []),
                  .expr (.call (.global "getattr") [.name "ars", .str "destination_radio_id"] []),
                  .expr (.call (.global "getattr") [.name "ars", .str "color_code"] []),
                  .expr (.call (.global "getattr") [.name "ars", .str "is_wakeup"] [])] [],
                .expr (.call (.func "prettyprint.prettyprint") [.name "ars"] []),
                .if_ (.and (.call (.global "isinstance") [.name "ars", .cls "Hytera.IpSiteConnectProtocol"] []) (.cmp .isNot (.attr (.name "ars") "slot_type") (.attr (.enum "Hytera.IpSiteConnectProtocol.SlotTypes") "slot_type_sync"))) [.expr (.call (.global "print") [.format [.str "DMR DATA: ", .call (.attr (.call (.func "byteswap.byteswap_bytes") [.attr (.name "ars") "ipsc_payload"] []) "hex") [] []]] [])] []]] }

/-- okdmr/kaitai/tools/debug.py:11-39 the class ProtocolDebug. -/
def debug_ProtocolDebug : ClassDef :=
  { name := "debug.ProtocolDebug"
    bases := []
    methods := [("_args", debug_ProtocolDebug__args), ("_impl", debug_ProtocolDebug__impl)] }

/-- okdmr/kaitai/tools/debug_hytera.py:21-25 `DebugHytera.rrs`. -/
def debug_hytera_DebugHytera_rrs : Function :=
  { params := []
    body := [.expr (.call (.attr (.script "debug_hytera.DebugHytera") "_impl") [] [("protocol", .str "Hytera RRS - Radio Registration Service"), ("kaitai", .cls "Hytera.RadioRegistrationService")])] }

/-- okdmr/kaitai/tools/debug_hytera.py:28-31 `DebugHytera.tmp`. -/
def debug_hytera_DebugHytera_tmp : Function :=
  { params := []
    body := [.expr (.call (.attr (.script "debug_hytera.DebugHytera") "_impl") [] [("protocol", .str "Hytera TMP - Text Message Protocol"), ("kaitai", .cls "Hytera.TextMessageProtocol")])] }

/-- okdmr/kaitai/tools/debug_hytera.py:34-38 `DebugHytera.ipsc`. -/
def debug_hytera_DebugHytera_ipsc : Function :=
  { params := []
    body := [.expr (.call (.attr (.script "debug_hytera.DebugHytera") "_impl") [] [("protocol", .str "Hytera IPSC - IP (Multi-)Site Connect Protocol"), ("kaitai", .cls "Hytera.IpSiteConnectProtocol")])] }

/-- okdmr/kaitai/tools/debug_hytera.py:41-44 `DebugHytera.rcp`. -/
def debug_hytera_DebugHytera_rcp : Function :=
  { params := []
    body := [.expr (.call (.attr (.script "debug_hytera.DebugHytera") "_impl") [] [("protocol", .str "Hytera RCP - Radio Control Protocol"), ("kaitai", .cls "Hytera.RadioControlProtocol")])] }

/-- okdmr/kaitai/tools/debug_hytera.py:47-50 `DebugHytera.dds`. -/
def debug_hytera_DebugHytera_dds : Function :=
  { params := []
    body := [.expr (.call (.attr (.script "debug_hytera.DebugHytera") "_impl") [] [("protocol", .str "Hytera DDS - Data Delivery States"), ("kaitai", .cls "Hytera.DataDeliveryStates")])] }

/-- okdmr/kaitai/tools/debug_hytera.py:53-57 `DebugHytera.hdap`. -/
def debug_hytera_DebugHytera_hdap : Function :=
  { params := []
    body := [.expr (.call (.attr (.script "debug_hytera.DebugHytera") "_impl") [] [("protocol", .str "Hytera HDAP - DMR Application Protocol"), ("kaitai", .cls "Hytera.HyteraDmrApplicationProtocol")])] }

/-- okdmr/kaitai/tools/debug_hytera.py:60-64 `DebugHytera.hrnp`. -/
def debug_hytera_DebugHytera_hrnp : Function :=
  { params := []
    body := [.expr (.call (.attr (.script "debug_hytera.DebugHytera") "_impl") [] [("protocol", .str "Hytera HRNP - Radio Network Protocol"), ("kaitai", .cls "Hytera.HyteraRadioNetworkProtocol")])] }

/-- okdmr/kaitai/tools/debug_hytera.py:67-71 `DebugHytera.hstrp`. -/
def debug_hytera_DebugHytera_hstrp : Function :=
  { params := []
    body := [.expr (.call (.attr (.script "debug_hytera.DebugHytera") "_impl") [] [("protocol", .str "Hytera HSTRP - Simple Transport Reliability Protocol"), ("kaitai", .cls "Hytera.HyteraSimpleTransportReliabilityProtocol")])] }

/-- okdmr/kaitai/tools/debug_hytera.py:74-77 `DebugHytera.lp`. -/
def debug_hytera_DebugHytera_lp : Function :=
  { params := []
    body := [.expr (.call (.attr (.script "debug_hytera.DebugHytera") "_impl") [] [("protocol", .str "Hytera LP - Location Protocol"), ("kaitai", .cls "Hytera.LocationProtocol")])] }

/-- okdmr/kaitai/tools/debug_hytera.py:80-83 `DebugHytera.dtp`. -/
def debug_hytera_DebugHytera_dtp : Function :=
  { params := []
    body := [.expr (.call (.attr (.script "debug_hytera.DebugHytera") "_impl") [] [("protocol", .str "Hytera DTP - Data Transmit Protocol"), ("kaitai", .cls "Hytera.DataTransmitProtocol")])] }

/-- okdmr/kaitai/tools/debug_hytera.py:86-89 `DebugHytera.tp`. -/
def debug_hytera_DebugHytera_tp : Function :=
  { params := []
    body := [.expr (.call (.attr (.script "debug_hytera.DebugHytera") "_impl") [] [("protocol", .str "Hytera TP - Telemetry Protocol"), ("kaitai", .cls "Hytera.TelemetryProtocol")])] }

/-- okdmr/kaitai/tools/debug_hytera.py:19-89 the class DebugHytera. -/
def debug_hytera_DebugHytera : ClassDef :=
  { name := "debug_hytera.DebugHytera"
    bases := ["debug.ProtocolDebug"]
    methods := [("rrs", debug_hytera_DebugHytera_rrs), ("tmp", debug_hytera_DebugHytera_tmp), ("ipsc", debug_hytera_DebugHytera_ipsc), ("rcp", debug_hytera_DebugHytera_rcp), ("dds", debug_hytera_DebugHytera_dds), ("hdap", debug_hytera_DebugHytera_hdap), ("hrnp", debug_hytera_DebugHytera_hrnp), ("hstrp", debug_hytera_DebugHytera_hstrp), ("lp", debug_hytera_DebugHytera_lp), ("dtp", debug_hytera_DebugHytera_dtp), ("tp", debug_hytera_DebugHytera_tp)] }

/-- okdmr/kaitai/tools/debug_homebrew.py:8-12 `DebugHomebrew.homebrew`. -/
def debug_homebrew_DebugHomebrew_homebrew : Function :=
  { params := []
    body := [.expr (.call (.attr (.script "debug_homebrew.DebugHomebrew") "_impl") [] [("protocol", .str "Homebrew 2015 - Original IPSC protocol for homebrew repeaters by DL5DI, G4KLX, DG1HT"), ("kaitai", .cls "Homebrew.Homebrew2015")])] }

/-- okdmr/kaitai/tools/debug_homebrew.py:15-19 `DebugHomebrew.mmdvm`. -/
def debug_homebrew_DebugHomebrew_mmdvm : Function :=
  { params := []
    body := [.expr (.call (.attr (.script "debug_homebrew.DebugHomebrew") "_impl") [] [("protocol", .str "MMDVM 2020 - Evolution of Homebrew protocol used currently"), ("kaitai", .cls "Homebrew.Mmdvm2020")])] }

/-- okdmr/kaitai/tools/debug_homebrew.py:6-19 the class DebugHomebrew. -/
def debug_homebrew_DebugHomebrew : ClassDef :=
  { name := "debug_homebrew.DebugHomebrew"
    bases := ["debug.ProtocolDebug"]
    methods := [("homebrew", debug_homebrew_DebugHomebrew_homebrew), ("mmdvm", debug_homebrew_DebugHomebrew_mmdvm)] }

/-- okdmr/kaitai/tools/debug_motorola.py:10-14 `DebugMotorola.ars`. -/
def debug_motorola_DebugMotorola_ars : Function :=
  { params := []
    body := [.expr (.call (.attr (.script "debug_motorola.DebugMotorola") "_impl") [] [("protocol", .str "Motorola ARS - Automatic Registration Service"), ("kaitai", .cls "Motorola.AutomaticRegistrationService")])] }

/-- okdmr/kaitai/tools/debug_motorola.py:17-20 `DebugMotorola.tmp`. -/
def debug_motorola_DebugMotorola_tmp : Function :=
  { params := []
    body := [.expr (.call (.attr (.script "debug_motorola.DebugMotorola") "_impl") [] [("protocol", .str "Motorola TMP - Text Message Protocol"), ("kaitai", .cls "Motorola.TextMessageProtocol")])] }

/-- okdmr/kaitai/tools/debug_motorola.py:8-20 the class DebugMotorola. -/
def debug_motorola_DebugMotorola : ClassDef :=
  { name := "debug_motorola.DebugMotorola"
    bases := ["debug.ProtocolDebug"]
    methods := [("ars", debug_motorola_DebugMotorola_ars), ("tmp", debug_motorola_DebugMotorola_tmp)] }

/-- pyproject.toml:56-70 the commands. -/
def commands : List Command :=
  [⟨"debug-motorola-ars", "debug_motorola.DebugMotorola", "ars"⟩,
   ⟨"debug-motorola-tmp", "debug_motorola.DebugMotorola", "tmp"⟩,
   ⟨"debug-hytera-rrs", "debug_hytera.DebugHytera", "rrs"⟩,
   ⟨"debug-hytera-tmp", "debug_hytera.DebugHytera", "tmp"⟩,
   ⟨"debug-hytera-ipsc", "debug_hytera.DebugHytera", "ipsc"⟩,
   ⟨"debug-hytera-rcp", "debug_hytera.DebugHytera", "rcp"⟩,
   ⟨"debug-hytera-dds", "debug_hytera.DebugHytera", "dds"⟩,
   ⟨"debug-hytera-hdap", "debug_hytera.DebugHytera", "hdap"⟩,
   ⟨"debug-hytera-hrnp", "debug_hytera.DebugHytera", "hrnp"⟩,
   ⟨"debug-hytera-hstrp", "debug_hytera.DebugHytera", "hstrp"⟩,
   ⟨"debug-hytera-lp", "debug_hytera.DebugHytera", "lp"⟩,
   ⟨"debug-hytera-dtp", "debug_hytera.DebugHytera", "dtp"⟩,
   ⟨"debug-hytera-tp", "debug_hytera.DebugHytera", "tp"⟩,
   ⟨"debug-homebrew", "debug_homebrew.DebugHomebrew", "homebrew"⟩,
   ⟨"debug-mmdvm", "debug_homebrew.DebugHomebrew", "mmdvm"⟩]

end Dmr.Script.Source

namespace Dmr.Script

/-- All of these files. -/
def scripts : Program :=
  { functions := [("motorola_utils.uintvar_to_int", Source.motorola_utils_uintvar_to_int),
      ("motorola_utils.clear_msb", Source.motorola_utils_clear_msb),
      ("motorola_utils.sintvar_to_int", Source.motorola_utils_sintvar_to_int),
      ("motorola_utils.ufloatvar_to_float", Source.motorola_utils_ufloatvar_to_float),
      ("motorola_utils.sfloatvar_to_float", Source.motorola_utils_sfloatvar_to_float),
      ("byteswap.byteswap_bytearray", Source.byteswap_byteswap_bytearray),
      ("byteswap.byteswap_bytes", Source.byteswap_byteswap_bytes),
      ("prettyprint.prettyprint", Source.prettyprint_prettyprint),
      ("prettyprint._array_prettyprint", Source.prettyprint__array_prettyprint),
      ("prettyprint._prettyprint", Source.prettyprint__prettyprint)]
    classes := [Source.debug_ProtocolDebug, Source.debug_hytera_DebugHytera, Source.debug_homebrew_DebugHomebrew, Source.debug_motorola_DebugMotorola]
    commands := Source.commands }

end Dmr.Script
