#!/usr/bin/env python3
"""Generate lean/Verif/Py/Script/Source.lean: okdmr/kaitai/motorola/motorola_utils.py, okdmr/kaitai/tools/*.py and the commands of
pyproject.toml as data of lean/Verif/Py/Script/Syntax.lean. The only thing done beyond printing the syntax tree is that names of
functions and classes are written in full; annotations are left out."""
import ast, os, re
REPO = "/repo"
OUT = os.path.join(os.path.dirname(os.path.abspath(__file__)), "..", "lean", "Verif", "Py", "Script", "Source.lean")
FILES = ["motorola/motorola_utils", "tools/byteswap", "tools/prettyprint", "tools/debug", "tools/debug_hytera", "tools/debug_homebrew",
         "tools/debug_motorola"]
BUILTINS = {"len", "bin", "int", "bytes", "bytearray", "list", "map", "isinstance", "getattr", "print", "str"}
IMPORTED = {"sys": "sys", "pprint": "pprint", "ArgumentParser": "ArgumentParser", "KaitaiStruct": "KaitaiStruct"}

def lstr(s): return '"' + s.replace("\\", "\\\\").replace('"', '\\"') + '"'
BIN = {"Add": "add", "Sub": "sub", "Div": "div", "Mod": "mod", "Pow": "pow", "LShift": "shl", "BitAnd": "band"}
CMP = {"Eq": "eq", "NotEq": "ne", "Lt": "lt", "LtE": "le", "Gt": "gt", "GtE": "ge", "Is": "is_", "IsNot": "isNot", "In": "in_", "NotIn": "notIn"}

class File: pass
files = {}
for f in FILES:
    m = File(); m.path = "okdmr/kaitai/%s.py" % f; m.stem = f.split("/")[1]
    m.tree = ast.parse(open(os.path.join(REPO, m.path)).read())
    m.names = {}
    for n in m.tree.body:
        if isinstance(n, ast.FunctionDef): m.names[n.name] = ("func", "%s.%s" % (m.stem, n.name))
        elif isinstance(n, ast.ClassDef): m.names[n.name] = ("script", "%s.%s" % (m.stem, n.name))
    files["okdmr.kaitai." + f.replace("/", ".")] = m
for m in files.values():
    for n in m.tree.body:
        if isinstance(n, ast.ImportFrom):
            for a in n.names:
                assert a.asname is None
                if n.module in files: m.names[a.name] = files[n.module].names[a.name]
                elif n.module.startswith("okdmr.kaitai."):
                    d, stem = n.module.split(".")[2:]
                    src = ast.parse(open("%s/okdmr/kaitai/%s/%s.py" % (REPO, d, stem)).read())
                    assert any(isinstance(c, ast.ClassDef) and c.name == a.name for c in src.body)
                    m.names[a.name] = ("cls", "%s.%s" % (d.capitalize(), a.name))
                    for c in [c for c in src.body if isinstance(c, ast.ClassDef) and c.name == a.name]:
                        for e in c.body:
                            if isinstance(e, ast.ClassDef) and any(ast.unparse(b) == "Enum" for b in e.bases):
                                m.names[a.name + "." + e.name] = ("enum", "%s.%s.%s" % (d.capitalize(), a.name, e.name))
                elif a.name in IMPORTED: m.names[a.name] = ("global", IMPORTED[a.name])
                else: assert n.module == "typing", n.module
        elif isinstance(n, ast.Import):
            for a in n.names: m.names[a.name] = ("global", IMPORTED[a.name])
        else: assert isinstance(n, (ast.FunctionDef, ast.ClassDef)), ast.dump(n)

def expr(m, loc, e):
    E = lambda x: expr(m, loc, x)
    P = lambda x: "(" + E(x) + ")" if " " in E(x) else E(x)
    L = lambda xs: "[" + ", ".join(E(x) for x in xs) + "]"
    if e is None: return ".none"
    if isinstance(e, ast.Constant):
        if e.value is None: return ".none"
        if isinstance(e.value, bool): return ".bool %s" % str(e.value).lower()
        if isinstance(e.value, int): return ".int %d" % e.value
        if isinstance(e.value, str): return ".str " + lstr(e.value)
    if isinstance(e, ast.Name):
        if e.id in loc: return ".name " + lstr(e.id)
        if e.id in m.names: return ".%s %s" % (m.names[e.id][0], lstr(m.names[e.id][1]))
        assert e.id in BUILTINS, e.id
        return ".global " + lstr(e.id)
    if isinstance(e, ast.Attribute):
        if ast.unparse(e) in m.names: return ".%s %s" % (m.names[ast.unparse(e)][0], lstr(m.names[ast.unparse(e)][1]))
        return ".attr %s %s" % (P(e.value), lstr(e.attr))
    if isinstance(e, ast.Call):
        kw = ", ".join("(%s, %s)" % (lstr(k.arg), E(k.value)) for k in e.keywords)
        return ".call %s %s [%s]" % (P(e.func), L(e.args), kw)
    if isinstance(e, ast.BinOp): return ".bin .%s %s %s" % (BIN[type(e.op).__name__], P(e.left), P(e.right))
    if isinstance(e, ast.UnaryOp): return ".%s %s" % ({"USub": "neg", "Not": "not"}[type(e.op).__name__], P(e.operand))
    if isinstance(e, ast.Compare):
        assert len(e.ops) == 1
        return ".cmp .%s %s %s" % (CMP[type(e.ops[0]).__name__], P(e.left), P(e.comparators[0]))
    if isinstance(e, ast.BoolOp):
        assert len(e.values) == 2
        return ".%s %s %s" % ("and" if isinstance(e.op, ast.And) else "or", P(e.values[0]), P(e.values[1]))
    if isinstance(e, ast.IfExp): return ".ifExp %s %s %s" % (P(e.test), P(e.body), P(e.orelse))
    if isinstance(e, ast.List): return ".list " + L(e.elts)
    if isinstance(e, ast.Tuple): return ".tuple " + L(e.elts)
    if isinstance(e, ast.Subscript):
        s = e.slice
        if isinstance(s, ast.Slice): return ".slice %s %s %s %s" % (P(e.value), P(s.lower), P(s.upper), P(s.step))
        return ".index %s %s" % (P(e.value), P(s))
    if isinstance(e, ast.JoinedStr):
        parts = []
        for v in e.values:
            if isinstance(v, ast.FormattedValue):
                assert v.conversion == -1 and v.format_spec is None
                v = v.value
            parts.append(v)
        return ".format " + L(parts)
    if isinstance(e, ast.DictComp):
        assert len(e.generators) == 1
        g = e.generators[0]
        assert isinstance(g.target, ast.Tuple) and len(g.target.elts) == 2 and len(g.ifs) <= 1 and not g.is_async
        x, y = [t.id for t in g.target.elts]
        inner = loc | {x, y}
        Q = lambda t: "(" + expr(m, inner, t) + ")"
        return ".dictComp %s %s %s %s %s %s" % (Q(e.key), Q(e.value), lstr(x), lstr(y), P(g.iter), Q(g.ifs[0]) if g.ifs else "(.bool true)")
    if isinstance(e, ast.Lambda):
        a = e.args
        assert len(a.args) == 1 and not (a.defaults or a.kwonlyargs or a.vararg or a.kwarg or a.posonlyargs)
        return ".lam %s (%s)" % (lstr(a.args[0].arg), expr(m, loc | {a.args[0].arg}, e.body))
    raise Exception(ast.dump(e))

def stmt(m, loc, s, ind):
    E = lambda x: expr(m, loc, x)
    P = lambda x: "(" + E(x) + ")" if " " in E(x) else E(x)
    if isinstance(s, ast.Assign):
        assert len(s.targets) == 1
        return ".assign %s %s" % (P(s.targets[0]), P(s.value))
    if isinstance(s, ast.AnnAssign): return ".assign %s %s" % (P(s.target), P(s.value))
    if isinstance(s, ast.Expr): return ".expr %s" % P(s.value)
    if isinstance(s, ast.If): return ".if_ %s %s %s" % (P(s.test), block(m, loc, s.body, ind), block(m, loc, s.orelse, ind))
    if isinstance(s, ast.For):
        assert not s.orelse
        return ".for_ %s %s %s" % (lstr(s.target.id), P(s.iter), block(m, loc, s.body, ind))
    if isinstance(s, ast.Return): return ".return_ %s" % P(s.value)
    raise Exception(ast.dump(s))

def block(m, loc, b, ind):
    return "[" + (",\n" + " " * (ind + 2)).join(stmt(m, loc, s, ind + 2) for s in b) + "]"

def function(m, f):
    a = f.args
    assert not (a.kwonlyargs or a.vararg or a.kwarg or a.posonlyargs)
    ps = [x.arg for x in a.args]
    ds = [None] * (len(ps) - len(a.defaults)) + a.defaults
    for d in a.defaults: assert isinstance(d, ast.Constant) and d.value is None
    loc = set(ps)
    for n in ast.walk(f):
        if isinstance(n, ast.Name) and isinstance(n.ctx, ast.Store): loc.add(n.id)
    comp = {t.id for n in ast.walk(f) if isinstance(n, ast.comprehension) for t in n.target.elts}
    loc -= comp - set(ps)
    par = ", ".join("(%s, %s)" % (lstr(p), "none" if d is None else "some .none") for p, d in zip(ps, ds))
    return "{ params := [%s]\n    body := %s }" % (par, block(m, loc, f.body, 12))

def lean(n): return n.replace(".", "_")
out = ["import Verif.Py.Script.Syntax", "/-", "Generated by tools/mkscript.py from okdmr/kaitai/motorola/motorola_utils.py, okdmr/kaitai/tools/*.py and pyproject.toml: these files as data.",
       "-/", "", "set_option autoImplicit false", "", "namespace Dmr.Script.Source", ""]
funcs, classes = [], []
for m in files.values():
    for n in m.tree.body:
        if isinstance(n, ast.FunctionDef):
            assert not n.decorator_list
            name = "%s.%s" % (m.stem, n.name)
            out += ["/-- %s:%d-%d `%s`. -/" % (m.path, n.lineno, n.end_lineno, n.name), "def %s : Function :=" % lean(name), "  " + function(m, n), ""]
            funcs.append((name, lean(name)))
        elif isinstance(n, ast.ClassDef):
            name = "%s.%s" % (m.stem, n.name)
            bases = [m.names[b.id][1] for b in n.bases]
            ms = []
            for f in n.body:
                assert isinstance(f, ast.FunctionDef) and [ast.unparse(d) for d in f.decorator_list] == ["staticmethod"]
                fn = lean(name + "." + f.name)
                out += ["/-- %s:%d-%d `%s.%s`. -/" % (m.path, f.lineno, f.end_lineno, n.name, f.name), "def %s : Function :=" % fn, "  " + function(m, f), ""]
                ms.append("(%s, %s)" % (lstr(f.name), fn))
            out += ["/-- %s:%d-%d the class %s. -/" % (m.path, n.lineno, n.end_lineno, n.name), "def %s : ClassDef :=" % lean(name),
                    "  { name := %s" % lstr(name), "    bases := [%s]" % ", ".join(map(lstr, bases)), "    methods := [%s] }" % ", ".join(ms), ""]
            classes.append(lean(name))
lines = open(os.path.join(REPO, "pyproject.toml")).read().split("\n")
i = lines.index("[project.scripts]") + 1; j = i; cmds = []
while lines[j].strip():
    k = re.fullmatch(r'([\w-]+) = "(okdmr\.kaitai\.tools\.\w+):(\w+)\.(\w+)"', lines[j])
    m = files[k.group(2)]
    cmds.append("⟨%s, %s, %s⟩" % (lstr(k.group(1)), lstr(m.names[k.group(3)][1]), lstr(k.group(4)))); j += 1
out += ["/-- pyproject.toml:%d-%d the commands. -/" % (i + 1, j), "def commands : List Command :=", "  [" + ",\n   ".join(cmds) + "]", "", "end Dmr.Script.Source", "", "namespace Dmr.Script", "",
        "/-- All of these files. -/", "def scripts : Program :=", "  { functions := [" + ",\n      ".join("(%s, Source.%s)" % (lstr(a), b) for a, b in funcs) + "]",
        "    classes := [" + ", ".join("Source." + c for c in classes) + "]", "    commands := Source.commands }", "", "end Dmr.Script", ""]
open(OUT, "w").write("\n".join(out))
