#!/usr/bin/env python3
"""Generate lean/Verif/LocalAll.lean: `Local` for every decoder that does not look at position, size or end of stream."""
import re, glob, os
root = os.path.join(os.path.dirname(__file__), "..", "lean", "Verif", "Model")
FORB = re.compile(r"\b(isEof|sizeIo|readBytesFull|seekIo|loopFuel|posIo|readRest)\b")
out = []
mods = []
skipped = []
order = []
defs = {}
for f in sorted(glob.glob(root + "/*/*.lean")):
    txt = open(f).read()
    ns = re.search(r"namespace (Dmr\.\w+)", txt)
    if not ns: continue
    ns = ns.group(1)
    mods.append("Verif.Model.%s.%s" % (f.split("/")[-2], os.path.basename(f)[:-5]))
    for m in re.finditer(r"^def (\S*\.read\w*|\S*\.compute\w+|\S*\.option(?:FlagIsOne|SumLen))( [^\n]*?)? : (Rd [^\n]*?) :=(.*?)(?=\n\n|\nend )", txt, re.S | re.M):
        full = ns + "." + m.group(1)
        defs[full] = (ns, m.group(1), m.group(2) or "", m.group(4))
        order.append(full)
def refs(full):
    ns, name, args, body = defs[full]
    r = []
    for m in re.finditer(r"([A-Z]\w*(?:\.\w+)*\.(?:read\w*|compute\w+|option(?:FlagIsOne|SumLen)))", body):
        n = m.group(1)
        cand = [c for c in (ns + "." + n, "Dmr." + n, "Dmr.Hytera." + n, "Dmr.Etsi." + n) if c in defs]
        assert cand, (full, n)
        if cand[0] not in r: r.append(cand[0])
    return r
bad = {f for f in order if FORB.search(defs[f][3])}
ch = True
while ch:
    ch = False
    for f in order:
        if f not in bad and any(x in bad for x in refs(f)):
            bad.add(f); ch = True
done = []
def emit(f):
    if f in done or f in bad: return
    for x in refs(f): emit(x)
    done.append(f)
for f in order: emit(f)
for f in done:
    ns, name, args, body = defs[f]
    params = re.findall(r"\(([^():]+) : ((?:[^()]|\([^()]*\))*)\)", args)
    pn = " ".join(p[0].strip() for p in params)
    binders = " ".join("(%s : %s)" % (a.strip(), t) for a, t in params)
    # qualify types of parameters
    rs = []
    for x in refs(f):
        n = len(re.findall(r"\(([^():]+) :", defs[x][2]))
        rs.append("%s_local%s" % (x, " _" * n))
    out.append("theorem %s_local %s: Local G (%s%s) := by" % (f[4:], (binders + " ") if binders else "", f[4:], (" " + pn) if pn else ""))
    out.append("  unfold %s" % f[4:])
    out.append("  local_reader [%s]" % ", ".join(r[4:] for r in rs))
    out.append("")
res = "import Verif.Local\n" + "".join("import %s\n" % m for m in mods)
res += """/-
`Local` for every decoder that does not look at the position, size or end of the stream, nor contains one that does
(generated by tools/mklocal.py). Not local: %s.
-/

set_option linter.unusedVariables false

namespace Dmr

variable {G : Bytes → Bytes → Prop}

""" % ", ".join(sorted(b[4:] for b in bad))
# open namespaces for parameter types
res += "open Dmr.Hytera Dmr.Etsi Dmr.Motorola Dmr.Homebrew in\n" if False else ""
res += "\n".join(out) + "\nend Dmr\n"
open(os.path.join(root, "..", "LocalAll.lean"), "w").write(res)
cls = [f for f in done if f.endswith(".read") and not defs[f][2].strip()]
o = """import Verif.LocalFrames
/-
The decoders that do not look at the position, size or end of the stream, as one list (generated by tools/mklocal.py from
the model: all classes without parameters whose decoder is local in the sense of Verif/Local.lean).
-/

namespace Dmr

/-- A decoder class: its name and its `_read`. -/
structure Decoder where
  name : String
  Obj : Type
  read : Rd Obj

/-- Decoders that use only sequential reads. -/
def sequentialDecoders : List Decoder := [
"""
o += ",\n".join('  ⟨"%s", _, %s⟩' % (f[4:-5], f[4:]) for f in cls) + "]\n\n"
o += "theorem sequentialDecoders_local {G : Bytes → Bytes → Prop} : ∀ d ∈ sequentialDecoders, Local G d.read := by\n  unfold sequentialDecoders\n"
o += "  repeat' (rw [List.forall_mem_cons]; refine ⟨by first\n"
o = o.rsplit("  repeat'", 1)[0]
for f in cls: o += "  refine List.forall_mem_cons.mpr ⟨%s_local, ?_⟩\n" % f[4:]
o += "  exact List.forall_mem_nil _\n\nend Dmr\n"
open(os.path.join(root, "..", "LocalList.lean"), "w").write(o)
print(len(cls), "classes")
print(len(done), "local;", len(bad), "not:", [b[4:] for b in sorted(bad)])
