#!/usr/bin/env python3
"""Generate lean/Verif/GrowAll.lean: `Grows` for every decoder that does not look at the size or end of the stream."""
import re, glob, os
root = os.path.join(os.path.dirname(__file__), "..", "lean", "Verif", "Model")
FORB = re.compile(r"\b(isEof|sizeIo|readBytesFull|loopFuel|readRest)\b")
out = []
mods = []
skipped = []
order = []
defs = {}
for f in sorted(glob.glob(root + "/*/*.lean")):
    txt = open(f).read()
    ns = re.search(r"namespace (Dmr\.\w+)", txt)
    if not ns: continue
    ns = ns.group(1)
    mods.append("Verif.Model.%s.%s" % (f.split("/")[-2], os.path.basename(f)[:-5]))
    for m in re.finditer(r"^def (\S*\.read\w*|\S*\.compute\w+|\S*\.option(?:FlagIsOne|SumLen))( [^\n]*?)? : (Rd [^\n]*?) :=(.*?)(?=\n\n|\nend )", txt, re.S | re.M):
        full = ns + "." + m.group(1)
        defs[full] = (ns, m.group(1), m.group(2) or "", m.group(4))
        order.append(full)
def refs(full):
    ns, name, args, body = defs[full]
    r = []
    for m in re.finditer(r"([A-Z]\w*(?:\.\w+)*\.(?:read\w*|compute\w+|option(?:FlagIsOne|SumLen)))", body):
        n = m.group(1)
        cand = [c for c in (ns + "." + n, "Dmr." + n, "Dmr.Hytera." + n, "Dmr.Etsi." + n) if c in defs]
        assert cand, (full, n)
        if cand[0] not in r: r.append(cand[0])
    return r
bad = {f for f in order if FORB.search(defs[f][3])}
ch = True
while ch:
    ch = False
    for f in order:
        if f not in bad and any(x in bad for x in refs(f)):
            bad.add(f); ch = True
done = []
def emit(f):
    if f in done or f in bad: return
    for x in refs(f): emit(x)
    done.append(f)
for f in order: emit(f)
for f in done:
    ns, name, args, body = defs[f]
    params = re.findall(r"\(([^():]+) : ((?:[^()]|\([^()]*\))*)\)", args)
    pn = " ".join(p[0].strip() for p in params)
    binders = " ".join("(%s : %s)" % (a.strip(), t) for a, t in params)
    # qualify types of parameters
    rs = []
    for x in refs(f):
        n = len(re.findall(r"\(([^():]+) :", defs[x][2]))
        rs.append("%s_grows%s" % (x, " _" * n))
    out.append("theorem %s_grows %s: Grows (%s%s) := by" % (f[4:], (binders + " ") if binders else "", f[4:], (" " + pn) if pn else ""))
    out.append("  unfold %s" % f[4:])
    out.append("  grow_reader [%s]" % ", ".join(r[4:] for r in rs))
    out.append("")
res = "import Verif.Grow\n" + "".join("import %s\n" % m for m in mods)
res += """/-
`Grows` for every decoder that does not look at the size or the end of the stream, nor contains one that does (generated by
tools/mkgrow.py). Not so: %s.
-/

set_option linter.unusedVariables false

namespace Dmr

""" % ", ".join(sorted(b[4:] for b in bad))
cls = [f for f in done if f.endswith(".read") and not defs[f][2].strip()]
names = re.findall(r'^  ⟨"([\w.]+)", _,', open(os.path.join(root, "..", "LocalList.lean")).read(), re.M)
assert all("Dmr." + n + ".read" in cls for n in names)
out.append("theorem sequentialDecoders_grow : ∀ d ∈ sequentialDecoders, Grows d.read := by\n  unfold sequentialDecoders")
for n in names: out.append("  refine List.forall_mem_cons.mpr ⟨%s.read_grows, ?_⟩" % n)
out.append("  exact List.forall_mem_nil _\n")
res += "\n".join(out) + "\nend Dmr\n"
open(os.path.join(root, "..", "GrowAll.lean"), "w").write(res)
print(len(cls), "classes;", len(bad), "not:", [b[4:] for b in sorted(bad)])
