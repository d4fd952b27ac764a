#!/usr/bin/env python3
"""Generate lean/Verif/Model/EnumNames.lean (the names of the members of every enumeration, from the Python source) and
lean/Verif/EnumPairs.lean (every enumeration of the Python program with the one of its schema)."""
import ast, glob, os, re
ROOT = "/repo/okdmr/kaitai"
OUT = os.path.join(os.path.dirname(os.path.abspath(__file__)), "..", "lean", "Verif")
schema = open(OUT + "/Ksy/Schema.lean").read()
defs, pairs, sc = [], [], {}
ns = None
for l in schema.split("\n"):
    m = re.match(r"namespace Dmr\.Ksy\.(\w+)", l)
    if m: ns = m.group(1)
    m = re.match(r"def (\S+) : EnumDef where", l)
    if m: cur = ns + "." + m.group(1)
    m = re.match(r"  members := \[(.*)\]", l)
    if m: sc[cur] = [(int(a), b) for a, b in re.findall(r'\((\d+), "([^"]*)"\)', m.group(1))]
mods = []
for d in ("hytera", "etsi", "homebrew", "motorola"):
    for f in sorted(glob.glob("%s/%s/*.py" % (ROOT, d))):
        t = ast.parse(open(f).read())
        def walk(node, path):
            for k in node.body:
                if not isinstance(k, ast.ClassDef): continue
                if any(isinstance(b, ast.Name) and b.id == "Enum" for b in k.bases):
                    mem = [(x.targets[0].id, ast.literal_eval(x.value)) for x in k.body if isinstance(x, ast.Assign)]
                    n = d.capitalize() + "." + ".".join(path + [k.name])
                    rel = "okdmr/kaitai/" + os.path.relpath(f, ROOT)
                    defs.append("/-- %s:%d-%d names of the members of `%s`. -/\ndef %s.pyName : %s → String\n" % (rel, k.lineno, k.end_lineno, k.name, n, n) + "\n".join('  | .%s => "%s"' % ("«%s»" % a if a in ("end", "private", "reserved") and False else a, a) for a, _ in mem) + "\n")
                    py = [(v, a) for a, v in mem]
                    pairs.append((n, py == sc[n], rel))
                    mod = "Verif.Model.%s.%s" % (d.capitalize(), path[0])
                    if mod not in mods: mods.append(mod)
                else: walk(k, path + [k.name])
        walk(t, [])
open(OUT + "/Model/EnumNames.lean", "w").write("".join("import %s\n" % m for m in mods) + """/-
Names of the members of every `class ...(Enum)` of the library (generated by tools/mkenumnames.py from the Python source).
-/

namespace Dmr

""" + "\n".join(defs) + "\nend Dmr\n")
open(OUT + "/EnumPairs.lean", "w").write("""import Verif.Model.EnumNames
import Verif.Ksy.Schema
/-
Every enumeration of the Python program with the one of the same name in the schema file of the same name (generated by
tools/mkenumnames.py).
-/

namespace Dmr

/-- An enumeration class of the Python program, the names of its members, and the enumeration of the schema. -/
structure EnumPair where
  file : String
  E : Type
  [inst : PyEnum E]
  pyName : E → String
  schema : Ksy.EnumDef

/-- All of them. -/
def enumPairs : List EnumPair := [
""" + ",\n".join('  ⟨"%s", %s, %s.pyName, Ksy.%s⟩' % (rel, n, n, n) for n, _, rel in pairs) + """]

end Dmr
""")
print(len(pairs), "same order:", sum(x[1] for x in pairs), [x[0] for x in pairs if not x[1]])
