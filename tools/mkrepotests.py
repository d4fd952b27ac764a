#!/usr/bin/env python3
"""Generate lean/Verif/RepoTests.lean: the messages in the unit tests of the repository, decoded by the model. The tests pass
upstream, so that a model which rejects one of them, or decodes it to something else than asserted, would be wrong."""
import ast, glob, os, re
R = "/repo/okdmr/tests/kaitai/"
out = []
n = 0
CLS = {"hytera/test_location_protocol.py": "LocationProtocol", "hytera/test_rcp.py": "RadioControlProtocol", "hytera/test_hdap.py": "HyteraDmrApplicationProtocol",
  "hytera/test_hrnp.py": "HyteraRadioNetworkProtocol", "hytera/test_hstrp.py": "HyteraSimpleTransportReliabilityProtocol", "hytera/test_ipsc.py": "IpSiteConnectProtocol",
  "hytera/test_data_delivery_states.py": "DataDeliveryStates", "hytera/test_text_message_protocol.py": "TextMessageProtocol", "hytera/test_radio_ip.py": "RadioIp",
  "etsi/test_dmr_csbk.py": "DmrCsbk", "etsi/test_dmr_header.py": "DmrDataHeader", "etsi/test_full_link_control.py": "FullLinkControl",
  "motorola/test_ars.py": "AutomaticRegistrationService", "motorola/test_message_protocol.py": "TextMessageProtocol"}
def lst(h):
    b = bytes.fromhex(h)
    return "[" + ", ".join("0x%02x" % x for x in b) + "]"
CHECK = {
"IpSiteConnectProtocol": "x.is_wakeup",
}
seen = set()
for f in sorted(CLS):
    c = CLS[f]; ns = f.split("/")[0].capitalize()
    t = ast.parse(open(R + f).read())
    hs = []
    for fn in ast.walk(t):
        if not isinstance(fn, ast.FunctionDef): continue
        for k in ast.walk(fn):
            if isinstance(k, ast.Constant) and isinstance(k.value, str) and re.fullmatch(r"[0-9a-fA-F]{8,}", k.value) and len(k.value) % 2 == 0:
                hs.append((fn.name, k.lineno, k.value))
    if c == "LocationProtocol": hs = [h for h in hs if len(h[2]) > 12]
    for fn, line, h in hs:
        wake = c == "IpSiteConnectProtocol" and fn == "test_wakeup"
        out.append("/-- okdmr/tests/kaitai/%s:%d -/" % (f, line))
        if wake: out.append("example : (fromBytes %s.%s.read %s).toOption.map (·.is_wakeup) = some true := by decide +kernel" % (ns, c, lst(h)))
        else: out.append("example : (fromBytes %s.%s.read %s).toBool = true := by decide +kernel" % (ns, c, lst(h)))
        out.append("")
        n += 1
hand = open(os.path.join(os.path.dirname(__file__), "handwritten", "repotests.txt")).read()
hand = re.sub(r'hex"([0-9a-fA-F]*)"', lambda m: lst(m.group(1)), hand)
hand = re.sub(r'bytes"([^"]*)"', lambda m: "[" + ", ".join("0x%02x" % ord(c) for c in m.group(1)) + "]", hand)
open(os.path.join(os.path.dirname(__file__), "..", "lean", "Verif", "RepoTests.lean"), "w").write("""import Verif.Model.Hytera.HyteraSimpleTransportReliabilityProtocol
import Verif.Model.Hytera.HyteraRadioNetworkProtocol
import Verif.Model.Hytera.IpSiteConnectProtocol
import Verif.Model.Etsi.DmrCsbk
import Verif.Model.Etsi.DmrDataHeader
import Verif.Model.Etsi.FullLinkControl
import Verif.Model.Homebrew.Mmdvm2020
import Verif.Model.Motorola.AutomaticRegistrationService
import Verif.Model.Motorola.TextMessageProtocol
import Verif.Model.Motorola.MotorolaBinaryXml
import Verif.Model.Motorola.MotorolaUtils
import Verif.Model.Lazy
/-
The messages in the unit tests of the repository, decoded by the model (generated by tools/mkrepotests.py; a check of the model, not
proofs of properties).
-/

namespace Dmr

/-! ### Accepted messages -/

""" + "\n".join(out) + "\n" + hand + "\nend Dmr\n")
print(n)
