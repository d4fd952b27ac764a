#!/usr/bin/env python3
"""lean/Verif/Py/ImportsSource.lean: the statements of the modules of the library that run when they are imported, from the trees of Python's `ast`."""
import ast, glob, os, builtins
R = "/repo/okdmr/kaitai"
OUT = os.path.join(os.path.dirname(__file__), "..", "lean", "Verif", "Py", "ImportsSource.lean")
def chain(n):
    c = []
    while isinstance(n, ast.Attribute): c.append(n.attr); n = n.value
    return (n.id, ".".join(c[::-1])) if isinstance(n, ast.Name) else None
def paths(nodes, bound):
    """Names that are looked up and not bound here, with the attributes that follow."""
    out = []
    def go(n):
        c = chain(n)
        if c:
            if c[0] not in bound and (c[0] != "__name__"): out.append(c)
            return
        for x in ast.iter_child_nodes(n): go(x)
    for n in nodes: go(n)
    return out
def stores(n):
    return {x.id for x in ast.walk(n) if isinstance(x, ast.Name) and isinstance(x.ctx, ast.Store)} | {x.name for x in ast.walk(n) if isinstance(x, ast.ExceptHandler) and x.name}
def function(f, later):
    """The paths that are looked up when the `def` runs; those of its body go to `later`."""
    a = f.args
    args = a.posonlyargs + a.args + a.kwonlyargs + [x for x in (a.vararg, a.kwarg) if x]
    assert not any(isinstance(x, (ast.FunctionDef, ast.ClassDef, ast.Global, ast.Nonlocal)) for s in f.body for x in ast.walk(s))
    local = {x.arg for x in args} | stores(f) | {x.arg for l in ast.walk(f) if isinstance(l, ast.Lambda) for x in l.args.args}
    later += paths(f.body, local)
    now = list(f.decorator_list) + list(a.defaults) + [d for d in a.kw_defaults if d] + [x.annotation for x in args if x.annotation] + ([f.returns] if f.returns else [])
    return now
def cls(c, prefix, later, members):
    now = paths(list(c.decorator_list) + list(c.bases) + [k.value for k in c.keywords], set())
    own, me = set(), prefix + c.name
    members.append(me)
    for s in c.body:
        if isinstance(s, ast.ClassDef):
            now += [p for p in cls(s, me + ".", later, members) if p[0] not in own]
            own.add(s.name)
        elif isinstance(s, ast.FunctionDef):
            now += paths(function(s, later), own)
            own.add(s.name); members.append(me + "." + s.name) if not s.name.startswith("__") else None
        elif isinstance(s, ast.Assign):
            now += paths([s.value], own)
            for t in s.targets: own.add(t.id); members.append(me + "." + t.id)
        elif isinstance(s, (ast.Pass,)) or (isinstance(s, ast.Expr) and isinstance(s.value, ast.Constant)): pass
        else: raise SystemExit(ast.dump(s)[:300])
    return now
def uniq(l): return list(dict.fromkeys(l))
def q(s): return 'n!"%s"' % s
def path(s): return lst([q(x) for x in s.split(".") if x])
def lst(l): return "[" + ", ".join(l) + "]"
def pth(p): return "(%s, %s)" % (q(p[0]), path(p[1]))
mods, methods = [], {}
for f in sorted(glob.glob(R + "/**/*.py", recursive=True)):
    rel = f[len("/repo/"):-3]
    name = rel.replace("/", ".")
    src = open(f).read()
    if name.endswith(".__init__"):
        assert src.strip() == ""
        mods.append((name[:-9], "/repo/" + rel + ".py", [], [])); continue
    body, later = [], []
    for s in ast.parse(src).body:
        if isinstance(s, ast.Import):
            for a in s.names: assert a.asname is None and "." not in a.name; body.append(".import_ %s" % q(a.name))
        elif isinstance(s, ast.ImportFrom):
            assert s.level == 0
            for a in s.names: assert a.asname is None; body.append(".from_ %s %s" % (q(s.module), q(a.name)))
        elif isinstance(s, ast.If) and ast.unparse(s.test) == "getattr(kaitaistruct, 'API_VERSION', (0, 9)) < (0, 9)":
            assert len(s.body) == 1 and isinstance(s.body[0], ast.Raise) and not s.orelse
            body.append(".check")
        elif isinstance(s, ast.If) and ast.unparse(s.test) == "__name__ == '__main__'": assert not s.orelse
        elif isinstance(s, ast.ClassDef):
            m = []
            now = cls(s, "", later, m)
            inherited = [x for b in s.bases if isinstance(b, ast.Name) for x in methods.get(b.id, [])]
            methods[s.name] = uniq(inherited + [t.name for t in s.body if isinstance(t, ast.FunctionDef) and not t.name.startswith("__")])
            m += [s.name + "." + x for x in inherited if s.name + "." + x not in m]
            body.append(".define %s\n      %s\n      %s" % (q(s.name), lst(map(pth, uniq(now))), lst(map(path, m))))
        elif isinstance(s, ast.FunctionDef):
            body.append(".define %s %s %s" % (q(s.name), lst(map(pth, uniq(paths(function(s, later), set())))), lst([path(s.name)])))
        else: raise SystemExit(ast.dump(s)[:300])
    mods.append((name, "/repo/" + rel + ".py", body, uniq(later)))
order, done = [], set()
by = {m[0]: m for m in mods}
def visit(n):
    if n in done: return
    done.add(n)
    p = n.rpartition(".")[0]
    if p: visit(p)
    for b in by[n][2] if n in by else []:
        if b.startswith(".from_"):
            _, m, x = [y.replace('n!', '').strip('"') for y in b.split(" ")]
            if m in by: visit(m)
            if m + "." + x in by: visit(m + "." + x)
    order.append(n)
for m in mods: visit(m[0])
with open(OUT, "w") as o:
    w = o.write
    w("import Verif.Py.Imports\n/-\nWritten by tools/mkimports.py from the Python source: what the modules of the library do when they are imported. The modules stand after those that\nthey import.\n-/\n\nset_option autoImplicit false\n\nnamespace Dmr.Py.Imports.Source\n")
    for n in order:
        d = n.replace(".", "_")
        pk, _, last = n.rpartition(".")
        if n not in by: w("\n/-- the directory /repo/%s (without `__init__.py`) -/\n" % n.replace(".", "/")); body, later = [], []
        else: w("\n/-- %s -/\n" % by[n][1]); body, later = by[n][2], by[n][3]
        w("def %s : Module where\n  name := %s\n  parent := %s\n  body := [%s]\n  later := %s\n" % (d, q(n), "some (%s, %s)" % (q(pk), q(last)) if pk else "none", ",\n    ".join(body), lst(map(pth, later))))
    w("\n/-- All modules. -/\ndef modules : List Module := %s\n\nend Dmr.Py.Imports.Source\n" % lst([n.replace(".", "_") for n in order]))
print(len(order))
