#!/usr/bin/env python3
"""Generate lean/Verif/Py/Source/*.lean: the source files okdmr/kaitai/{etsi,homebrew,hytera,motorola}/*.py as data of
lean/Verif/Py/Syntax.lean. The only thing done beyond printing the syntax tree is that dotted names of classes and enumerations
are written in full."""
import ast, glob, os, re
REPO = "/repo"
BASE = os.path.join(os.path.dirname(os.path.abspath(__file__)), "..", "lean", "Verif", "Py")
GLOBALS = {"KaitaiStream", "BytesIO", "range", "int", "str", "hasattr", "getattr", "kaitaistruct"}

def lstr(s): return '"' + s.replace("\\", "\\\\").replace('"', '\\"') + '"'
def camel(s): return s[0].upper() + s[1:]
BIN = {"Add": "add", "Sub": "sub", "LShift": "shl", "RShift": "shr", "BitAnd": "band"}
CMP = {"Eq": "eq", "NotEq": "ne", "Lt": "lt", "LtE": "le", "Gt": "gt", "GtE": "ge"}

class Mod: pass
mods = []
for d in ("hytera", "etsi", "homebrew", "motorola"):
    for f in sorted(glob.glob("%s/okdmr/kaitai/%s/*.py" % (REPO, d))):
        if f.endswith("__init__.py") or f.endswith("motorola_utils.py"): continue
        m = Mod(); m.dir = d; m.path = os.path.relpath(f, REPO); m.stem = os.path.basename(f)[:-3]
        m.tree = ast.parse(open(f).read())
        cl = [n for n in m.tree.body if isinstance(n, ast.ClassDef)]
        assert len(cl) == 1, f
        m.top = cl[0]; m.prefix = camel(d)
        m.imports = {}
        for n in m.tree.body:
            if isinstance(n, ast.ImportFrom) and n.module.startswith("okdmr"):
                for a in n.names: m.imports[a.name] = n.module.split(".")[-1]
        mods.append(m)
bykey = {(m.dir, m.stem): m for m in mods}

class Ctx:
    def __init__(self, m, locals_): self.m = m; self.locals = locals_

def dotted(e):
    if isinstance(e, ast.Name): return [e.id]
    if isinstance(e, ast.Attribute):
        b = dotted(e.value)
        return b and b + [e.attr]
    return None

def is_enum(c): return any(ast.unparse(b) == "Enum" for b in c.bases)

def resolve(c, e):
    """a dotted name that denotes a class or an enumeration"""
    d = dotted(e)
    if not d: return None
    m = c.m
    if d[0] in m.imports:
        m2 = bykey[(m.imports[d[0]], d[0])]
        d = d[1:]
        if not d: return None
        m = m2
    if d[0] != m.top.name: return None
    cur = m.top
    for x in d[1:]:
        nxt = [n for n in cur.body if isinstance(n, ast.ClassDef) and n.name == x]
        if not nxt: return None
        cur = nxt[0]
    q = "%s.%s" % (m.prefix, ".".join(d))
    return ("enum " if is_enum(cur) else "cls ") + lstr(q)

def expr(c, e):
    r = resolve(c, e)
    if r: return "." + r
    if isinstance(e, ast.Constant):
        v = e.value
        if v is None: return ".none"
        if isinstance(v, bool): return ".bool %s" % str(v).lower()
        if isinstance(v, int): return ".int %d" % v if v >= 0 else ".int (%d)" % v
        if isinstance(v, str): return ".str %s" % lstr(v)
        if isinstance(v, bytes): return ".bytes [%s]" % ", ".join(map(str, v))
    if isinstance(e, ast.Name):
        if e.id in c.locals: return ".name " + lstr(e.id)
        assert e.id in GLOBALS, e.id
        return ".global " + lstr(e.id)
    def p(x): return "(" + expr(c, x) + ")"
    if isinstance(e, ast.Attribute): return ".attr %s %s" % (p(e.value), lstr(e.attr))
    if isinstance(e, ast.Call):
        assert not e.keywords
        return ".call %s [%s]" % (p(e.func), ", ".join(expr(c, a) for a in e.args))
    if isinstance(e, ast.BinOp): return ".bin .%s %s %s" % (BIN[type(e.op).__name__], p(e.left), p(e.right))
    if isinstance(e, ast.Compare):
        assert len(e.ops) == 1
        return ".cmp .%s %s %s" % (CMP[type(e.ops[0]).__name__], p(e.left), p(e.comparators[0]))
    if isinstance(e, ast.UnaryOp) and isinstance(e.op, ast.Not): return ".not %s" % p(e.operand)
    if isinstance(e, ast.BoolOp):
        op = "and" if isinstance(e.op, ast.And) else "or"
        r = expr(c, e.values[0])
        for v in e.values[1:]: r = ".%s (%s) %s" % (op, r, p(v))
        return r
    if isinstance(e, ast.IfExp): return ".ifExp %s %s %s" % (p(e.test), p(e.body), p(e.orelse))
    if isinstance(e, ast.List) and not e.elts: return ".emptyList"
    raise Exception(ast.dump(e))

def stmts(c, ss, ind):
    if not ss: return "[]"
    pad = "\n" + " " * ind
    return "[" + ("," + pad + " ").join(stmt(c, s, ind + 1) for s in ss) + "]"

def stmt(c, s, ind):
    def p(x): return "(" + expr(c, x) + ")"
    if isinstance(s, ast.Assign):
        assert len(s.targets) == 1
        t = s.targets[0]
        if isinstance(t, ast.Name): c.locals.add(t.id); return ".assign %s %s" % (lstr(t.id), p(s.value))
        return ".setattr %s %s %s" % (p(t.value), lstr(t.attr), p(s.value))
    if isinstance(s, ast.AugAssign):
        assert isinstance(s.op, ast.Add) and isinstance(s.target, ast.Name)
        return ".assign %s (.bin .add (.name %s) %s)" % (lstr(s.target.id), lstr(s.target.id), p(s.value))
    if isinstance(s, ast.Expr): return ".expr %s" % p(s.value)
    if isinstance(s, ast.If): return ".if_ %s\n%s%s\n%s%s" % (p(s.test), " " * (ind + 1), stmts(c, s.body, ind + 1), " " * (ind + 1), stmts(c, s.orelse, ind + 1))
    if isinstance(s, ast.For):
        c.locals.add(s.target.id)
        return ".for_ %s %s\n%s%s" % (lstr(s.target.id), p(s.iter), " " * (ind + 1), stmts(c, s.body, ind + 1))
    if isinstance(s, ast.While):
        return ".while_ %s\n%s%s" % (p(s.test), " " * (ind + 1), stmts(c, s.body, ind + 1))
    if isinstance(s, ast.Break): return ".break_"
    if isinstance(s, ast.Pass): return ".pass_"
    if isinstance(s, ast.Raise): return ".raise_ %s" % p(s.exc)
    if isinstance(s, ast.Return): return ".return_ %s" % p(s.value)
    raise Exception(ast.dump(s))

def nodoc(b):
    return [s for s in b if not (isinstance(s, ast.Expr) and isinstance(s.value, ast.Constant))]

def fun(m, f, ind):
    ps = [a.arg for a in f.args.args]
    assert all(isinstance(d, ast.Constant) and d.value is None for d in f.args.defaults)
    c = Ctx(m, set(ps))
    return "⟨[%s],\n%s%s⟩" % (", ".join(map(lstr, ps)), " " * ind, stmts(c, nodoc(f.body), ind))

INIT = None
allc, alle, imps, files = [], [], [], []
os.makedirs(BASE + "/Source", exist_ok=True)
for m in mods:
    name = m.top.name + ("Motorola" if (m.dir, m.top.name) == ("motorola", "TextMessageProtocol") else "")
    out = ["import Verif.Py.Syntax", "/-", "Generated by tools/mkpyast.py: %s as data." % m.path, "-/", "", "set_option autoImplicit false", "",
           "namespace Dmr.Py.Source.%s" % m.prefix, ""]
    def walk(cl, path):
        q = ".".join(path)
        cite = "%s:%d-%d" % (m.path, cl.lineno, cl.end_lineno)
        if is_enum(cl):
            ms = []
            for s in nodoc(cl.body):
                assert isinstance(s, ast.Assign) and len(s.targets) == 1 and isinstance(s.value.value, int), ast.dump(s)
                ms.append("(%s, %d)" % (lstr(s.targets[0].id), s.value.value))
            out.extend(["/-- %s -/" % cite, "def %s : EnumDef where" % q, "  qualified := %s" % lstr(m.prefix + "." + q), "  name := %s" % lstr(path[-1]),
                        "  members := [%s]" % ", ".join(ms), ""])
            alle.append(m.prefix + "." + q)
            return
        assert [ast.unparse(b) for b in cl.bases] == ["KaitaiStruct"], q
        meth, props = [], []
        for s in nodoc(cl.body):
            if isinstance(s, ast.ClassDef): walk(s, path + [s.name])
            elif isinstance(s, ast.FunctionDef):
                if s.decorator_list:
                    assert [ast.unparse(d) for d in s.decorator_list] == ["property"]
                    props.append(s)
                else: meth.append(s)
            else: raise Exception(ast.dump(s))
        assert [f.name for f in meth] == ["__init__", "_read"], (q, [f.name for f in meth])
        out.extend(["/-- %s -/" % cite, "def %s : ClassDef where" % q, "  name := %s" % lstr(m.prefix + "." + q)])
        out.append("  methods := [" + ",\n    ".join("(%s, %s)" % (lstr(f.name), fun(m, f, 6)) for f in meth) + "]")
        out.append("  properties := [" + ",\n    ".join("(%s, %s)" % (lstr(f.name), fun(m, f, 6)) for f in props) + "]")
        out.append("")
        allc.append(m.prefix + "." + q)
    c0, e0 = len(allc), len(alle)
    walk(m.top, [m.top.name])
    sh = lambda l: "[" + ",\n    ".join(x.split(".", 1)[1] for x in l) + "]"
    out += ["/-- %s -/" % m.path, "def %s.file : File where" % m.top.name, "  classes := " + sh(allc[c0:]), "  enums := " + sh(alle[e0:]), ""]
    files.append("%s.%s.file" % (m.prefix, m.top.name))
    out += ["end Dmr.Py.Source.%s" % m.prefix, ""]
    open("%s/Source/%s.lean" % (BASE, name), "w").write("\n".join(out))
    imps.append("Verif.Py.Source." + name)
o = ["import " + i for i in imps] + ["import Verif.Py.Semantics", "/-", "Generated by tools/mkpyast.py: the library.", "-/", "", "namespace Dmr.Py", "", "open Source", "",
     "/-- okdmr/kaitai/{etsi,homebrew,hytera,motorola}/*.py -/", "def files : List File :=", "  [" + ",\n   ".join(files) + "]", "",
     "/-- The classes and enumerations of these files. -/", "def library : Program where",
     "  classes := (files.map File.classes).flatten", "  enums := (files.map File.enums).flatten", "", "end Dmr.Py", ""]
open(BASE + "/Source.lean", "w").write("\n".join(o))
print(len(mods), "modules", len(allc), "classes", len(alle), "enums")
