#!/usr/bin/env python3
"""Lists the conformance theorems of lean/Verif/Ksy/Conform/*.lean -> lean/Verif/Ksy/Conform/All.lean."""
import glob, os, re
L = os.path.join(os.path.dirname(__file__), '../lean/Verif/')
schema = open(L + 'Ksy/Schema.lean').read()
types = []
for m in re.finditer(r'^/-- (\S+?)\.ksy:\S+ type `(\w+)`\. -/\ndef (\S+) : TypeDef where\n((?:  .*\n|    .*\n)*)', schema, re.M):
    ns = re.findall(r'^namespace Dmr\.Ksy\.(\w+)', schema[:m.start()], re.M)[-1]
    types.append((m[1], ns, m[3], 'top := true' in m[4]))
thm = {}
for f in sorted(glob.glob(L + 'Ksy/Conform/*.lean')):
    s = open(f).read()
    fam = re.search(r'^namespace Dmr\.Ksy\.(\w+)', s, re.M)
    for m in re.finditer(r'theorem (\w+)_conforms \(n : Nat\) \(sc : Scope\)(.*?)parse \(n \+ (\d+)\) sc (\w+)\.(\S+)\s*=\s*(.*?):= by', s, re.S):
        thm[(m[4], m[5])] = (m[1], int(m[3]), m[2].strip() != ':', m[6])
mods = sorted(os.path.basename(f)[:-5] for f in glob.glob(L + 'Ksy/Conform/*.lean') if not f.endswith(('All.lean', 'Base.lean')))
rows, ctx = [], []
for file, ns, t, top in types:
    tag, k, c, rhs = thm[(ns, t)]
    (ctx if c else rows).append((file, ns, t, top, tag, k))
def row(r):
    file, ns, t, top, tag, k = r
    return f'⟨"{file}", {ns}.{t}, Dmr.{ns}.{t}.toPy <$> Dmr.{ns}.{t}.read⟩'
def lst(name, rs, doc):
    out = f'/-- {doc} -/\ndef {name} : List PyClass :=\n  [' + ',\n   '.join(row(r) for r in rs) + ']\n\n'
    out += f'theorem {name}_conform : ∀ c ∈ {name}, ∀ (n : Nat) (sc : Scope), parse (n + 6) sc c.schema = view <$> c.read := by\n  unfold {name}\n'
    for r in rs:
        file, ns, t, top, tag, k = r
        out += f'  refine List.forall_mem_cons.2 ⟨fun n sc => (Ksy.{ns}.{tag}_conforms (n + {6-k}) sc).trans (view_read _ _), ?_⟩\n'
    out += '  exact fun _ h => nomatch h\n\n'
    return out
tops = [r for r in rows if r[3]]
inner = [r for r in rows if not r[3]]
out = ''.join(f'import Verif.Ksy.Conform.{m}\n' for m in mods)
out += '''/-
Generated by tools/mkschemalist.py: the types of the schemas beside the Python classes.
-/

set_option maxRecDepth 4000

namespace Dmr.Ksy

/-- A type of a schema, and the Python class of the same name in the module of the same name: `read` decodes an object at the
position of a stream. -/
structure PyClass where
  file : String
  schema : TypeDef
  read : Rd PyVal

theorem view_read (f : α → PyVal) (r : Rd α) : (fun x => view (f x)) <$> r = view <$> (f <$> r) := by
  simp only [map_eq_pure_bind, bind_assoc, pure_bind]

'''
out += lst('fileClasses', tops, 'The classes that stand for a whole schema file: all of them.')
out += lst('innerClasses', inner, 'The types inside the files, but for those in the comment below, whose attributes depend on the object that contains\nthem (they are parts of the classes in `fileClasses`).')
out += '/-\nTypes that depend on their context: ' + ', '.join(f'{r[1]}.{r[2]}' for r in ctx) + '.\n-/\n\nend Dmr.Ksy\n'
open(L + 'Ksy/Conform/All.lean', 'w').write(out)
print(len(tops), len(inner), len(ctx))
