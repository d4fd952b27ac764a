import Verif.Model.Lazy
import Verif.Model.Tools.Byteswap
import Verif.Model.Tools.Prettyprint
/-
Model of okdmr/kaitai/tools/debug.py and debug_{hytera,homebrew,motorola}.py (hand-written).
-/

namespace Dmr.Tools

/-- The value of a hexadecimal digit, as `bytes.fromhex` sees it. -/
def hexDigit (c : Char) : Option Nat :=
  if '0' ≤ c ∧ c ≤ '9' then some (c.toNat - 48)
  else if 'a' ≤ c ∧ c ≤ 'f' then some (c.toNat - 87)
  else if 'A' ≤ c ∧ c ≤ 'F' then some (c.toNat - 55)
  else none

/-- ASCII whitespace, which `bytes.fromhex` skips between two bytes (CPython 3.7 and later). -/
def isSpace (c : Char) : Bool := c == ' ' || c == '\t' || c == '\n' || c == '\r' || c == '\x0b' || c == '\x0c'

/-- The Python function `bytes.fromhex(text)`: ValueError for anything else. -/
def fromHex : PyStr → Except PyErr Bytes
  | [] => .ok []
  | [c] => if isSpace c then .ok [] else .error .value
  | c :: d :: rest =>
    if isSpace c then fromHex (d :: rest)
    else
      match hexDigit c, hexDigit d with
      | some h, some l =>
        match fromHex rest with
        | .ok bs => .ok (UInt8.ofNat (16 * h + l) :: bs)
        | .error e => .error e
      | _, _ => .error .value

/-- A digit of `bytes.hex()`. -/
def hexChar (n : Nat) : Char := Char.ofNat (if n < 10 then 48 + n else 87 + n)

/-- The Python method `bytes.hex()`. -/
def toHex (b : Bytes) : PyStr := b.flatMap fun x => [hexChar (x.toNat / 16), hexChar (x.toNat % 16)]

/-- What the program writes: a value given to `pprint`, or a line given to `print`. -/
inductive Output where
  | pprint (v : PyVal)
  | line (s : PyStr)

/-- okdmr/kaitai/tools/debug_hytera.py:19-89, debug_homebrew.py:6-19, debug_motorola.py:8-20 the command line tools. -/
inductive Tool where
  | hytera_rrs | hytera_tmp | hytera_ipsc | hytera_rcp | hytera_dds | hytera_hdap | hytera_hrnp | hytera_hstrp | hytera_lp
  | hytera_dtp | hytera_tp | homebrew | mmdvm | motorola_ars | motorola_tmp
  deriving DecidableEq, Repr

/-- What `kaitai.from_bytes` returns to `_impl`: an IPSC packet, or an instance of another class. -/
inductive Decoded where
  | ipsc (x : Hytera.IpSiteConnectProtocol)
  | other (v : PyVal)

/-- okdmr/kaitai/tools/debug_hytera.py:19-89, debug_homebrew.py:6-19, debug_motorola.py:8-20 the argument `kaitai` of `_impl`:
its `from_bytes`. -/
def Tool.fromBytes : Tool → Bytes → Except PyErr Decoded
  | .hytera_rrs, b => (Dmr.fromBytes Hytera.RadioRegistrationService.read b).map fun x => .other x.toPy
  | .hytera_tmp, b => (Dmr.fromBytes Hytera.TextMessageProtocol.read b).map fun x => .other x.toPy
  | .hytera_ipsc, b => (Dmr.fromBytes Hytera.IpSiteConnectProtocol.read b).map .ipsc
  | .hytera_rcp, b => (Dmr.fromBytes Hytera.RadioControlProtocol.read b).map fun x => .other x.toPy
  | .hytera_dds, b => (Dmr.fromBytes Hytera.DataDeliveryStates.read b).map fun x => .other x.toPy
  | .hytera_hdap, b => (Dmr.fromBytes Hytera.HyteraDmrApplicationProtocol.read b).map fun x => .other x.toPy
  | .hytera_hrnp, b => (Dmr.fromBytes Hytera.HyteraRadioNetworkProtocol.read b).map fun x => .other x.toPy
  | .hytera_hstrp, b => (Dmr.fromBytes Hytera.HyteraSimpleTransportReliabilityProtocol.read b).map fun x => .other x.toPy
  | .hytera_lp, b => (Dmr.fromBytes Hytera.LocationProtocol.read b).map fun x => .other x.toPy
  | .hytera_dtp, b => (Dmr.fromBytes Hytera.DataTransmitProtocol.read b).map fun x => .other x.toPy
  | .hytera_tp, b => (Dmr.fromBytes Hytera.TelemetryProtocol.read b).map fun x => .other x.toPy
  | .homebrew, b => (Dmr.fromBytes Homebrew.Homebrew2015.read b).map fun x => .other x.toPy
  | .mmdvm, b => (Dmr.fromBytes Homebrew.Mmdvm2020.read b).map fun x => .other x.toPy
  | .motorola_ars, b => (Dmr.fromBytes Motorola.AutomaticRegistrationService.read b).map fun x => .other x.toPy
  | .motorola_tmp, b => (Dmr.fromBytes Motorola.TextMessageProtocol.read b).map fun x => .other x.toPy

/-- okdmr/kaitai/tools/debug.py:29-39 the body of the loop after `from_bytes`: for an IPSC packet the four properties are
accessed first; then the object is printed; then the payload line. Returns what was written before the end or exception. -/
def showDecoded : Decoded → List Output × Except PyErr Unit
  | .other v =>
    match prettyprint v with
    | .error e => ([], .error e)
    | .ok d => ([.pprint d], .ok ())
  | .ipsc x =>
    let o := (Hytera.IpSiteConnectProtocol.Obj.accesses ⟨x, []⟩
      [.source_radio_id, .destination_radio_id, .color_code, .is_wakeup]).2
    match prettyprint o.toPy with
    | .error e => ([], .error e)
    | .ok d =>
      if o.attrs.slot_type ≠ .known .slot_type_sync then
        match byteswapBytes o.attrs.ipsc_payload with
        | .error e => ([.pprint d], .error e)
        | .ok swapped => ([.pprint d, .line ("DMR DATA: ".toList ++ toHex swapped)], .ok ())
      else ([.pprint d], .ok ())

/-- okdmr/kaitai/tools/debug.py:27-39 `for hex_msg in args.hex`. -/
def debugLoop (tool : Tool) : List PyStr → List Output × Except PyErr Unit
  | [] => ([], .ok ())
  | msg :: rest =>
    match fromHex msg with
    | .error e => ([], .error e)
    | .ok b =>
      match tool.fromBytes b with
      | .error e => ([], .error e)
      | .ok x =>
        match showDecoded x with
        | (out, .error e) => (out, .error e)
        | (out, .ok ()) =>
          let (out', r) := debugLoop tool rest
          (out ++ out', r)

/-- How a run ends: normally, with an exception, or with argparse's `SystemExit(2)`. -/
inductive Ending where
  | done
  | exception (e : PyErr)
  | usage
  deriving DecidableEq

/-- okdmr/kaitai/tools/debug.py:20-39 `ProtocolDebug._impl(protocol, kaitai, arguments)` with `sys.argv[1:] = argv`. argparse
(debug.py:12-18, `nargs="+"`) is modelled for arguments that do not begin with `-`: it accepts every non-empty list as it is and
ends the program otherwise. -/
def debugImpl (tool : Tool) (argv : List PyStr) (arguments : Option (List PyStr)) : List Output × Ending :=
  let args := match arguments with
    | none => argv
    | some [] => argv
    | some l => l
  match args with
  | [] => ([], .usage)
  | _ :: _ =>
    match debugLoop tool args with
    | (out, .ok ()) => (out, .done)
    | (out, .error e) => (out, .exception e)

end Dmr.Tools
