#!/usr/bin/env python3
"""Generate lean/Verif/Enums.lean: a LawfulEnum instance for every enumeration of the model."""
import re, os
BASE = os.path.join(os.path.dirname(os.path.abspath(__file__)), "..", "lean")
mods = [l.split()[1] for l in open(os.path.join(BASE, "Verif.lean")) if l.startswith("import Verif.Model.")]
out, names = [], []
for m in mods:
    t = open(os.path.join(BASE, m.replace(".", "/") + ".lean")).read()
    ns = re.search(r"^namespace (\S+)", t, re.M).group(1)
    for e in re.findall(r"^instance (\S+)\.instPyEnum", t, re.M):
        names.append("%s.%s" % (ns, e))
o = ["import Verif.Enum"] + ["import " + m for m in mods]
o += ["/-", "Generated by tools/mkenums.py: every `class ...(Enum)` of the library has different member values.", "-/", "",
      "set_option linter.unnecessarySeqFocus false", "", "namespace Dmr", ""]
for n in names:
    o += ["instance : LawfulEnum %s where" % n.replace("Dmr.", ""),
          "  complete := by intro e; cases e <;> simp [PyEnum.all]", "  distinct := by decide", ""]
o += ["/-- An enumeration class. -/", "structure EnumClass where", "  E : Type", "  [inst : PyEnum E]", "",
      "/-- Every enumeration class of the library (okdmr/kaitai/*/*.py, all `class ...(Enum)`). -/",
      "def libraryEnums : List EnumClass :=", "  [" + ",\n   ".join("⟨%s⟩" % n.replace("Dmr.", "") for n in names) + "]", "",
      "theorem libraryEnums_lawful : ∀ c ∈ libraryEnums, @LawfulEnum c.E c.inst := by",
      "  intro c hc", "  simp only [libraryEnums, List.mem_cons, List.not_mem_nil, or_false] at hc",
      "  rcases hc with " + " | ".join("rfl" for _ in names) + " <;> infer_instance", "", "end Dmr", ""]
open(os.path.join(BASE, "Verif", "Enums.lean"), "w").write("\n".join(o))
print(len(names), "enums")
