#!/usr/bin/env python3
"""Generate lean/Verif/ErrorsAll.lean: which exceptions each class can raise, from the layout specifications."""
import re, os
root = os.path.join(os.path.dirname(os.path.abspath(__file__)), "..", "lean", "Verif")
ORDER = ["EOFError", "ValidationNotEqualError", "UnicodeDecodeError", "ValueError"]
defs, order = {}, []
for f in ["HyteraVar", "EtsiVar", "HomebrewVar", "MotorolaVar"]:
    txt = open(f"{root}/Spec/{f}.lean").read()
    ns = re.search(r"namespace Dmr\.(\w+)", txt).group(1)
    txt = re.sub(r"/-.*?-/", "", txt, flags=re.S)
    for m in re.finditer(r"^def (\S+)((?:\s+\([^()]*\))*)\s*:\s*([^\n]*?(?:\n    [^\n]*?)?)\s(?::=|where)(.*?)(?=\n\n|\nend |\ndef |\Z)", txt, re.S | re.M):
        name, params, ty, body = m.groups()
        if "Parsed" not in ty and "Except" not in ty: continue
        full = ns + "." + name
        ps = re.findall(r"\(([^():]+):([^()]*)\)", params)
        defs[full] = dict(ns=ns, name=name, params=[(a.strip(), t.strip()) for a, t in ps], ty=ty, body=body)
        order.append(full)
def refs(full):
    d = defs[full]; out = []
    for m in re.finditer(r"(?<![\w.])((?:[A-Z]\w*\.)*(?:\w*[sS]pec|magicThenId|lengthPrefixed|varBytes))\b", d["body"]):
        n = m.group(1)
        pre = d["name"].split(".")
        for k in range(len(pre), -1, -1):
            c = ".".join([d["ns"]] + pre[:k] + [n])
            if c in defs:
                if c not in out: out.append(c)
                break
    return [r for r in out if r != full]
MANUAL = {"Motorola.varBytes", "Hytera.HyteraSimpleTransportReliabilityProtocol.spec", "Motorola.MotorolaBinaryXml.spec",
          "Hytera.TextMessageProtocol.optionSpec"}
kinds = {}
def K(full):
    if full in kinds: return kinds[full]
    b = defs[full]["body"]; s = set()
    if re.search(r"\b(upTo|next|whole|textAt|sizedAt|fixedAt)\b|\.error \.eof", b): s.add("EOFError")
    if re.search(r"\bfixedAt\b|\.validation", b): s.add("ValidationNotEqualError")
    if re.search(r"\b(textAt|decoded)\b|\.error \.unicode", b): s.add("UnicodeDecodeError")
    if re.search(r"\bsizedAt\b|\.error \.value", b): s.add("ValueError")
    for r in refs(full): s |= K(r)
    if full == "Hytera.HyteraSimpleTransportReliabilityProtocol.spec": s |= K("Hytera.HyteraDmrApplicationProtocol.spec")
    kinds[full] = s
    return s
def lst(s): return "[" + ", ".join("." + k for k in ORDER if k in s) + "]"
out, done = [], set()
def nargs(full):
    d = defs[full]
    n = sum(len(a.split()) for a, _ in d["params"])
    if "Bytes → Nat" in d["ty"]: n += 2
    return n
def thm(full): return full + "_errs"
def emit(full):
    if full in done: return
    done.add(full)
    for r in refs(full): emit(r)
    d = defs[full]
    pre = ""
    binders = []
    names = []
    ns = d["ns"]
    for a, t in d["params"]:
        for x in a.split():
            x = x if x != "_" else "b"
            binders.append(f"({x} : {t})"); names.append(x)
    if "Bytes → Nat" in d["ty"]: binders += ["(b : Bytes)", "(q : Nat)"]; names += ["b", "q"]
    if full in MANUAL:
        out.append(open(f"{os.path.dirname(os.path.abspath(__file__))}/handwritten/errs_{full}.lean.txt").read().rstrip().replace("@KINDS", lst(K(full))))
        out.append(""); return
    implicit = "{α : Type} " if full.endswith("magicThenId") else ""
    out.append(f"open Dmr.{ns} in\ntheorem {thm(full)} {implicit}{' '.join(binders)} : Errs {lst(K(full))} ({full} {' '.join(names)}) := by")
    out.append(f"  unfold {full}")
    if full == "Hytera.RealTimeTransportProtocol.spec": pass
    facts = ", ".join(f"{thm(r)}" + " _" * nargs(r) for r in refs(full))
    out.append(f"  only_errs [{facts}]")
    out.append("")
for f in order: emit(f)
res = """import Verif.Errors
import Verif.Layout.HyteraFrame
import Verif.Layout.EtsiVar
import Verif.Layout.HomebrewVar
import Verif.Layout.MotorolaVar
/-
Which exceptions each message can raise (generated by tools/mkerrs.py from the layout specifications).
-/

set_option linter.unusedVariables false
set_option maxRecDepth 4000

namespace Dmr

""" + "\n".join(out) + "\nend Dmr\n"
open(f"{root}/ErrorsAll.lean", "w").write(res)
print(len(done))

# ---- the table of all classes ----
import glob
cls = []
params = []
for f in sorted(f for fam in ("Etsi", "Homebrew", "Hytera", "Motorola") for f in glob.glob(root + f"/Model/{fam}/*.lean")):
    txt = open(f).read()
    ns = re.search(r"namespace Dmr\.(\w+)", txt).group(1)
    for m in re.finditer(r"^def (\S*)\.read((?: \([^()]*\))*) : Rd ", txt, re.M):
        (params if m.group(2) or m.group(1).endswith("ConfigurationOrClosing") else cls).append(ns + "." + m.group(1))
fixed = set()
for f in ["Hytera", "Etsi", "Homebrew", "Motorola"]:
    txt = open(f"{root}/Layout/{f}.lean").read()
    for m in re.finditer(r"^fixed_layout (\S+)", txt, re.M): fixed.add(f + "." + m.group(1))
SPECIAL = {
  "Etsi.FullLinkControl": (["EOFError"], "by rw [Etsi.FullLinkControl.fromBytes_eq]; exact Etsi.FullLinkControl.spec_errs b"),
  "Motorola.MotorolaBinaryXml.LrrpImmediateRequestNcdt": (["EOFError"], "by\n    unfold Motorola.MotorolaBinaryXml.LrrpImmediateRequestNcdt.read\n    rw [(Motorola.MotorolaBinaryXml.LrrpElement.parses.map _).fromBytes]\n    exact Errs.map _ (Errs.as _ (Motorola.MotorolaBinaryXml.LrrpElement.spec_errs b 0))"),
  "Motorola.TextMessageProtocol.TextMessageHeaderSequenceAndEncoding": (["EOFError"], "textHeader_errs b"),
  "Hytera.IpSiteConnectHeartbeat": (["ValidationNotEqualError"], "heartbeat_errs b"),
  "Motorola.MotorolaBinaryXml": (["EOFError"], "by\n    rw [Motorola.MotorolaBinaryXml.parses.fromBytes]\n    exact Errs.map _ (Motorola.MotorolaBinaryXml.spec_errs b 0 (Nat.zero_le _))"),
}
def entry(c):
    if c in SPECIAL: return SPECIAL[c]
    if c + ".spec" in defs: return ([k for k in ORDER if k in K(c + ".spec")], f"by rw [{c}.parses.fromBytes]; exact Errs.map _ ({c}.spec_errs b 0)")
    if c in fixed: return (["EOFError"], f"by rw [{c}.fixed.fromBytes]; exact Errs.ite (Errs.ok _) (Errs.error (by decide))")
    return ([], f"Errs.ok _")
o = open(os.path.dirname(os.path.abspath(__file__)) + "/handwritten/exceptions_head.lean.txt").read()
for c in cls:
    ks, pf = entry(c)
    o += f"theorem {c}.exceptions (b : Bytes) : Errs {lst(ks)} (fromBytes {c}.read b) := {pf}\n"
o += "\n/-- Every class that can be decoded on its own, and the exceptions its `from_bytes` can raise. -/\ndef exceptionTable : List (Decoder × List ErrKind) := [\n"
o += ",\n".join(f'  (⟨"{c}", _, {c}.read⟩, {lst(entry(c)[0])})' for c in cls) + "]\n\n"
o += "theorem exceptionTable_sound : ∀ p ∈ exceptionTable, ∀ b, Errs p.2 (fromBytes p.1.read b) := by\n  unfold exceptionTable\n"
for c in cls: o += f"  refine List.forall_mem_cons.mpr ⟨{c}.exceptions, ?_⟩\n"
o += "  exact List.forall_mem_nil _\n\n"
o += open(os.path.dirname(os.path.abspath(__file__)) + "/handwritten/exceptions_tail.lean.txt").read()
open(root + "/Props/Exceptions.lean", "w").write(o)
print(len(cls), "classes;", "with parameters:", params)
print("nothing raised:", [c for c in cls if not entry(c)[0]])
