#!/usr/bin/env python3
"""Generate lean/Verif/ShiftAll.lean: `Shifts` for every decoder that does not look at the position or the size of the stream."""
import re, glob, os
root = os.path.join(os.path.dirname(__file__), "..", "lean", "Verif", "Model")
FORB = re.compile(r"\b(sizeIo|seekIo|loopFuel|posIo)\b")
out = []
mods = []
skipped = []
order = []
defs = {}
for f in sorted(glob.glob(root + "/*/*.lean")):
    txt = open(f).read()
    ns = re.search(r"namespace (Dmr\.\w+)", txt)
    if not ns: continue
    ns = ns.group(1)
    mods.append("Verif.Model.%s.%s" % (f.split("/")[-2], os.path.basename(f)[:-5]))
    for m in re.finditer(r"^def (\S*\.read\w*|\S*\.compute\w+|\S*\.option(?:FlagIsOne|SumLen))( [^\n]*?)? : (Rd [^\n]*?) :=(.*?)(?=\n\n|\nend )", txt, re.S | re.M):
        full = ns + "." + m.group(1)
        defs[full] = (ns, m.group(1), m.group(2) or "", m.group(4))
        order.append(full)
def refs(full):
    ns, name, args, body = defs[full]
    r = []
    for m in re.finditer(r"([A-Z]\w*(?:\.\w+)*\.(?:read\w*|compute\w+|option(?:FlagIsOne|SumLen)))", body):
        n = m.group(1)
        cand = [c for c in (ns + "." + n, "Dmr." + n, "Dmr.Hytera." + n, "Dmr.Etsi." + n) if c in defs]
        assert cand, (full, n)
        if cand[0] not in r: r.append(cand[0])
    return r
bad = {f for f in order if FORB.search(defs[f][3])}
ch = True
while ch:
    ch = False
    for f in order:
        if f not in bad and any(x in bad for x in refs(f)):
            bad.add(f); ch = True
done = []
def emit(f):
    if f in done or f in bad: return
    for x in refs(f): emit(x)
    done.append(f)
for f in order: emit(f)
for f in done:
    ns, name, args, body = defs[f]
    params = re.findall(r"\(([^():]+) : ((?:[^()]|\([^()]*\))*)\)", args)
    pn = " ".join(p[0].strip() for p in params)
    binders = " ".join("(%s : %s)" % (a.strip(), t) for a, t in params)
    # qualify types of parameters
    rs = []
    for x in refs(f):
        n = len(re.findall(r"\(([^():]+) :", defs[x][2]))
        rs.append("%s_shifts%s" % (x, " _" * n))
    out.append("theorem %s_shifts %s: Shifts (%s%s) := by" % (f[4:], (binders + " ") if binders else "", f[4:], (" " + pn) if pn else ""))
    out.append("  unfold %s" % f[4:])
    out.append("  shift_reader [%s]" % ", ".join(r[4:] for r in rs))
    out.append("")
shift = out
out = []
for f in done:
    ns, name, args, body = defs[f]
    params = re.findall(r"\(([^():]+) : ((?:[^()]|\([^()]*\))*)\)", args)
    pn = " ".join(p[0].strip() for p in params)
    binders = " ".join("(%s : %s)" % (a.strip(), t) for a, t in params)
    # qualify types of parameters
    rs = []
    for x in refs(f):
        n = len(re.findall(r"\(([^():]+) :", defs[x][2]))
        rs.append("%s_tidy%s" % (x, " _" * n))
    out.append("theorem %s_tidy %s: Tidy (%s%s) := by" % (f[4:], (binders + " ") if binders else "", f[4:], (" " + pn) if pn else ""))
    out.append("  unfold %s" % f[4:])
    out.append("  tidy_reader [%s]" % ", ".join(r[4:] for r in rs))
    out.append("")
tidy = out
res = "import Verif.Shift\n" + "".join("import %s\n" % m for m in mods)
res += """/-
`Shifts` for every decoder that does not look at the position or size of the stream, nor contains one that does
(generated by tools/mkshift.py). Not here: %s.
-/

set_option linter.unusedVariables false

namespace Dmr

""" % ", ".join(sorted(b[4:] for b in bad))
# open namespaces for parameter types
res += "open Dmr.Hytera Dmr.Etsi Dmr.Motorola Dmr.Homebrew in\n" if False else ""
res += "\n".join(shift) + "\nend Dmr\n"
open(os.path.join(root, "..", "ShiftAll.lean"), "w").write(res)
cls = [f for f in done if f.endswith(".read") and not defs[f][2].strip()]
res = "import Verif.Tidy\n" + "".join("import %s\n" % m for m in mods) + """/-
`Tidy` for the same decoders as in Verif/ShiftAll.lean (generated by tools/mkshift.py).
-/

set_option linter.unusedVariables false

namespace Dmr

""" + "\n".join(tidy) + "\nend Dmr\n"
open(os.path.join(root, "..", "TidyAll.lean"), "w").write(res)
M = "Motorola.MotorolaBinaryXml"
cls += ["Dmr." + M + "." + c + ".read" for c in "Uintvar Sintvar ConstantDataTableReference LrrpElement LrrpImmediateRequestNcdt MbxmlDocument Sfloatvar Ufloatvar".split()]
cls += ["Dmr." + M + ".read", "Dmr.Hytera.RealTimeTransportProtocol.read"]
o = """import Verif.ShiftMore
import Verif.LocalList
/-
The decoders for which it does not matter where in the stream the structure starts, as one list (generated by tools/mkshift.py from
the model: all classes without parameters but the exceptions named in Props/Positions.lean).
-/

namespace Dmr

/-- See the head of this file. -/
def relocatableDecoders : List Decoder := [
"""
o += ",\n".join('  ⟨"%s", _, %s⟩' % (f[4:-5], f[4:]) for f in cls) + "]\n\n"
o += "theorem relocatableDecoders_shift : ∀ d ∈ relocatableDecoders, Shifts d.read := by\n  unfold relocatableDecoders\n"
for f in cls: o += "  refine List.forall_mem_cons.mpr ⟨%s_shifts, ?_⟩\n" % f[4:]
o += "  exact List.forall_mem_nil _\n\nend Dmr\n"
open(os.path.join(root, "..", "ShiftList.lean"), "w").write(o)
loc = open(os.path.join(root, "..", "LocalList.lean")).read()
seq = re.findall(r"_, (\S+\.read)⟩", loc)
o = """import Verif.TidyAll
import Verif.LocalList
/-
`Tidy` for the list `sequentialDecoders` (generated by tools/mkshift.py).
-/

namespace Dmr

theorem sequentialDecoders_tidy : ∀ d ∈ sequentialDecoders, Tidy d.read := by
  unfold sequentialDecoders
"""
for f in seq: o += "  refine List.forall_mem_cons.mpr ⟨%s_tidy, ?_⟩\n" % f
o += "  exact List.forall_mem_nil _\n\nend Dmr\n"
open(os.path.join(root, "..", "TidyList.lean"), "w").write(o)
print(len(cls), "relocatable")
print(len(done), "shift;", len(bad), "not:", [b[4:] for b in sorted(bad)])
