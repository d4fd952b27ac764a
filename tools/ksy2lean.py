#!/usr/bin/env python3
"""Transcribes the .ksy schemas in /repo to Lean data (Verif/Ksy/Schema.lean), for the semantics in Verif/Ksy/Lang.lean.
Contains a parser for the part of YAML and of the Kaitai expression language that the schemas use; anything else is an error."""
import re, os, sys
REPO = "/repo"
DIRS = ["hytera", "etsi", "homebrew", "motorola"]
# ---------------------------------------------------------------- YAML
def strip_comment(s):
    out, q = "", None
    for i, c in enumerate(s):
        if q:
            if c == q: q = None
        elif c in "'\"": q = c
        elif c == "#" and (i == 0 or s[i - 1] in " \t"): break
        out += c
    return out.rstrip()
def scalar(s):
    s = s.strip()
    if len(s) >= 2 and s[0] == s[-1] == "'": return s[1:-1].replace("''", "'")
    if len(s) >= 2 and s[0] == s[-1] == '"': return s[1:-1]
    if s.startswith("["):
        return [scalar(x) for x in s[1:-1].split(",")]
    return s
def load(path):
    raw = open(path).read().split("\n")
    lines = []  # (indent, text, line number)
    for n, l in enumerate(raw, 1):
        t = strip_comment(l)
        lines.append((len(l) - len(l.lstrip(" ")), t.strip(), n))
    pos = 0
    def skip():
        nonlocal pos
        while pos < len(lines) and not lines[pos][1]: pos += 1
    def split_key(t):
        m = re.match(r"""('(?:[^']|'')*'|"[^"]*"|[^'"]+?)\s*:(?:\s+(.*))?$""", t)
        return (scalar(m.group(1)), m.group(2)) if m else None
    def block(ind):
        nonlocal pos
        skip()
        if pos >= len(lines) or lines[pos][0] < ind: return None
        ind = lines[pos][0]
        if lines[pos][1].startswith("- "): return seq(ind)
        return mapping(ind)
    def seq(ind):
        nonlocal pos
        out = []
        while True:
            skip()
            if pos >= len(lines) or lines[pos][0] != ind or not lines[pos][1].startswith("-"): return out
            i, t, n = lines[pos]
            rest = t[1:].lstrip()
            if split_key(rest):
                lines[pos] = (i + (len(t) - len(rest)), rest, n)
                out.append(mapping(lines[pos][0]))
            else:
                pos += 1
                out.append(scalar(rest))
    def mapping(ind):
        nonlocal pos
        out = {"@line": lines[pos][2]}
        while True:
            skip()
            if pos >= len(lines) or lines[pos][0] != ind or lines[pos][1].startswith("- "): break
            i, t, n = lines[pos]
            k = split_key(t)
            if not k: raise Exception("%s:%d %r" % (path, n, t))
            key, val = k
            pos += 1
            if val in ("|", ">"):
                while pos < len(lines) and (not raw[lines[pos][2] - 1].strip() or lines[pos][0] > ind): pos += 1
                v = ""
            elif val is None or val == "":
                skip()
                if pos < len(lines) and (lines[pos][0] > ind or (lines[pos][0] == ind and lines[pos][1].startswith("- "))): v = block(lines[pos][0])
                else: v = None
            else:
                v = scalar(val)
                # folded plain scalars (only in doc)
                while pos < len(lines) and lines[pos][1] and lines[pos][0] > ind and key in ("doc", "title"): pos += 1
            assert key not in out, (path, n, key)
            out[key] = v
        skip()
        out["@end"] = lines[pos - 1][2] if pos <= len(lines) else len(lines)
        return out
    return mapping(0)
# ---------------------------------------------------------------- expressions
TOK = re.compile(r"\s*(0x[0-9A-Fa-f]+|0b[01]+|\d+|'[^']*'|\"[^\"]*\"|[A-Za-z_][A-Za-z_0-9]*|::|<<|>>|==|!=|>=|<=|[-+&|()<>?:.,])")
def tokens(s):
    out, i = [], 0
    s = s.rstrip()
    while i < len(s):
        m = TOK.match(s, i)
        assert m, (s, i)
        out.append(m.group(1)); i = m.end()
    return out
BIN = [["or"], ["and"], ["==", "!=", ">=", "<=", ">", "<"], ["|"], ["&"], ["<<", ">>"], ["+", "-"]]
OPS = {"or": "or", "and": "and", "==": "eq", "!=": "ne", ">=": "ge", "<=": "le", ">": "gt", "<": "lt", "&": "band", "<<": "shl", ">>": "shr", "+": "add", "-": "sub"}
def lean_str(s): return '"' + s + '"'
def parse_expr(s, enum_of):
    ts = tokens(s); p = 0
    def peek(): return ts[p] if p < len(ts) else None
    def take(x=None):
        nonlocal p
        t = ts[p]; p += 1
        assert x is None or t == x, (s, t, x)
        return t
    def ternary():
        c = binary(0)
        if peek() == "?":
            take(); a = ternary(); take(":"); b = ternary()
            return "(.cond %s %s %s)" % (c, a, b)
        return c
    def binary(l):
        if l == len(BIN): return unary()
        if l == 2 and peek() == "not":
            pass
        a = binary(l + 1)
        while peek() in BIN[l]:
            o = take(); b = binary(l + 1)
            a = "(.bin .%s %s %s)" % (OPS[o], a, b)
        return a
    def unary():
        if peek() == "not":
            take(); return "(.not %s)" % binary(2)
        return postfix()
    def postfix():
        a = primary()
        while peek() == ".":
            take(); n = take()
            if n == "to_i": a = "(.toI %s)" % a
            elif n == "to_s":
                if peek() == "(":
                    take(); enc = take(); take(")")
                    a = "(.decode %s .%s)" % (a, ENC[scalar(enc).lower()])
                else: a = "(.toS %s)" % a
            else: a = "(.get %s %s)" % (a, lean_str(n))
        return a
    def primary():
        t = take()
        if t == "(":
            a = ternary(); take(")"); return a
        if re.match(r"\d", t): return "(.int %d)" % int(t, 0)
        if t[0] in "'\"": return "(.str %s.toList)" % lean_str(t[1:-1])
        if peek() == "::":
            take(); return "(.enum %s %s)" % (enum_of(t), lean_str(take()))
        if t == "_": return ".item"
        if t == "_io":
            take("."); n = take()
            return {"eof": ".ioEof", "size": ".ioSize", "pos": ".ioPos"}[n]
        if t == "_root": take("."); return "(.root %s)" % lean_str(take())
        if t == "_parent": take("."); return "(.parent %s)" % lean_str(take())
        return "(.field %s)" % lean_str(t)
    e = ternary()
    assert p == len(ts), (s, ts[p:])
    return e
# ---------------------------------------------------------------- types
ENC = {"ascii": "ascii", "utf-8": "utf8", "utf-16le": "utf16le", "utf-16-le": "utf16le", "utf-16-be": "utf16be"}
PRIM = {"u1": "u1", "u2be": "u2be", "u2le": "u2le", "u4be": "u4be", "u4le": "u4le", "s2be": "s2be"}
def camel(s): return "".join(x[:1].upper() + x[1:] for x in s.split("_"))
class File:
    def __init__(self, d, f):
        self.dir, self.path = d, "okdmr/kaitai/%s/%s" % (d, f)
        self.y = load(REPO + "/" + self.path)
        self.id = self.y["meta"]["id"]
        self.top = camel(self.id)
        self.endian = self.y["meta"].get("endian")
        self.imports = self.y["meta"].get("imports") or []
        assert set(self.y) <= {"@line", "@end", "meta", "doc", "doc-ref", "enums", "types", "seq", "instances"}, self.y.keys()
out = []
def emit(s): out.append(s)
def clean(d): return [k for k in d if not k.startswith("@")]
def expr(F, s): return parse_expr(str(s), lambda n: enum_name(F, n))
def enum_name(F, n):
    assert n in (F.y.get("enums") or {}), (F.path, n)
    return "%s.%s" % (F.top, camel(n))
def type_name(F, n):
    if n in (F.y.get("types") or {}): return "%s.%s" % (F.top, camel(n))
    assert n in F.imports, (F.path, n)
    return camel(n)
def prim(F, t):
    if t in ("u2", "u4", "s2"): t += F.endian
    return PRIM.get(t)
def size_expr(F, a):
    return expr(F, a["size"])
def ty(F, a, where):
    t = a.get("type")
    enum = a.get("enum")
    if "contents" in a:
        c = a["contents"]
        assert t is None
        if isinstance(c, list): bs = [int(x, 0) for x in c]
        elif re.match(r"(0x)?[0-9a-fA-F]+$", c) and c.startswith("0x"): bs = [int(c, 16)]
        else: bs = list(c.encode())
        return ".contents [%s] %s" % (", ".join("0x%02x" % b for b in bs), lean_str(where))
    if isinstance(t, dict):
        assert clean(t) == ["switch-on", "cases"], t
        cs, dflt = [], None
        for k in clean(t["cases"]):
            v = t["cases"][k]
            if k == "_": dflt = v
            else: cs.append("(%s, %s)" % (expr(F, k), type_name(F, v)))
        sw = ".switch %s [%s] %s" % (expr(F, t["switch-on"]), ", ".join(cs), "(some %s)" % type_name(F, dflt) if dflt else "none")
        if "size" in a: return ".sized %s (%s)" % (size_expr(F, a), sw)
        return sw
    if t is None:
        if a.get("size-eos") == "true": return ".bytesEos"
        return ".bytes %s" % size_expr(F, a)
    if t == "str":
        e = ENC[a["encoding"].lower()]
        if a.get("size-eos") == "true": return ".strEos .%s" % e
        return ".str %s .%s" % (size_expr(F, a), e)
    m = re.match(r"b(\d+)$", t)
    if m:
        n = int(m.group(1))
        if n == 1 and not enum: return ".flag"
        if enum: return ".bitsEnum %d %s" % (n, enum_name(F, enum))
        return ".bits %d" % n
    p = prim(F, t)
    if p:
        if enum: return ".primEnum .%s %s" % (p, enum_name(F, enum))
        return ".prim .%s" % p
    assert "size" not in a and not enum, a
    return ".user %s" % type_name(F, t)
KEYS = {"id", "type", "size", "size-eos", "enum", "if", "doc", "doc-ref", "encoding", "contents", "repeat", "repeat-expr", "repeat-until", "valid", "@line", "@end"}
def attr(F, a, where):
    assert set(a) <= KEYS, (F.path, set(a) - KEYS)
    r = "{ id := %s, ty := %s" % (lean_str(a["id"]), ty(F, a, where))
    if "if" in a: r += ", cond := some %s" % expr(F, a["if"])
    if "repeat" in a:
        if a["repeat"] == "expr": r += ", rep := .times %s" % expr(F, a["repeat-expr"])
        elif a["repeat"] == "until": r += ", rep := .until %s" % expr(F, a["repeat-until"])
        elif a["repeat"] == "eos": r += ", rep := .eos"
        else: raise Exception(a)
    if "valid" in a: r += ", valid := some (%s, %s)" % (expr(F, a["valid"]), lean_str(where))
    return r + " }"
IKEYS = {"value", "pos", "io", "type", "size", "enum", "if", "encoding", "doc", "doc-ref", "@line", "@end"}
def instance(F, n, i):
    assert set(i) <= IKEYS, (F.path, set(i) - IKEYS)
    if "value" in i: return "(%s, .value %s)" % (lean_str(n), expr(F, i["value"]))
    assert i.get("io") in (None, "_root._io")
    c = "(some %s)" % expr(F, i["if"]) if "if" in i else "none"
    return "(%s, .at %s (%s) %s)" % (lean_str(n), expr(F, i["pos"]), ty(F, i, ""), c)
def span(d): return "%d-%d" % (d["@line"], d["@end"])
def typedef(F, name, cls, d, top, path):
    assert set(d) <= {"@line", "@end", "seq", "instances", "doc", "doc-ref"} or top, (F.path, name, set(d))
    seq = d.get("seq") or []
    s = "/-- %s:%s type `%s`. -/\ndef %s : TypeDef where\n  name := %s\n" % (F.path, span(d), name, cls, lean_str(camel(F.dir) + "." + cls))
    s += "  seq := [%s]\n" % (",\n    ".join(attr(F, a, path + "/seq/%d" % i) for i, a in enumerate(seq)))
    ins = d.get("instances") or {}
    s += "  instances := [%s]\n" % (",\n    ".join(instance(F, n, ins[n]) for n in clean(ins)))
    s += "  top := %s\n" % ("true" if top else "false")
    return s
def refs(F, d):
    r = set()
    for a in (d.get("seq") or []) + [(d.get("instances") or {})[k] for k in clean(d.get("instances") or {})]:
        t = a.get("type")
        if isinstance(t, dict): r |= {t["cases"][k] for k in clean(t["cases"])}
        elif t: r.add(t)
    return r
def main():
    files = {}
    for d in DIRS:
        for f in sorted(os.listdir("%s/okdmr/kaitai/%s" % (REPO, d))):
            if f.endswith(".ksy"):
                F = File(d, f); files[(d, F.id)] = F
    done, order = set(), []
    def visit(k):
        if k in done: return
        done.add(k)
        for i in files[k].imports: visit((k[0], i))
        order.append(k)
    for k in sorted(files, key=lambda k: (DIRS.index(k[0]), k[1])): visit(k)
    emit("import Verif.Ksy.Lang\n/-\nThe schemas okdmr/kaitai/*/*.ksy as data (generated by tools/ksy2lean.py from the YAML text).\n-/\n")
    listing = []
    for k in order:
        F = files[k]
        emit("namespace Dmr.Ksy.%s\n" % camel(F.dir))
        en = F.y.get("enums") or {}
        for n in clean(en):
            ms = [(int(v, 0), en[n][v]) for v in clean(en[n])]
            emit("/-- %s:%s enum `%s`. -/\ndef %s.%s : EnumDef where\n  name := %s\n  members := [%s]\n" % (F.path, span(en[n]), n, F.top, camel(n), lean_str(camel(n)), ", ".join("(%d, %s)" % (v, lean_str(m)) for v, m in ms)))
        ts = F.y.get("types") or {}
        seen = set()
        def tv(n):
            if n in seen or n not in ts: return
            seen.add(n)
            for r in sorted(refs(F, ts[n])): tv(r)
            emit(typedef(F, n, "%s.%s" % (F.top, camel(n)), ts[n], False, "/types/" + n))
            listing.append((camel(F.dir), "%s.%s" % (F.top, camel(n))))
        for n in clean(ts): tv(n)
        emit(typedef(F, F.id, F.top, F.y, True, ""))
        listing.append((camel(F.dir), F.top))
        emit("end Dmr.Ksy.%s\n" % camel(F.dir))
    os.makedirs("/verif/lean/Verif/Ksy", exist_ok=True)
    open("/verif/lean/Verif/Ksy/Schema.lean", "w").write("\n".join(out))
    return files, listing
if __name__ == "__main__":
    _, l = main()
    print(len(l), "types")
