#!/usr/bin/env python3
"""Translate the checked-in kaitai decoders of /repo into Lean readers (Verif/Model/<Pkg>/<File>.lean).

The translation is statement by statement over the Python AST; anything it does not recognise is an error.
Classes listed in tools/handwritten/<Pkg>.<File>.<Class>.lean.txt are taken from there instead, and
tools/handwritten/<Pkg>.<File>.extra.lean.txt is appended (properties)."""
import ast, os, sys, re

REPO = os.environ.get("REPO", "/repo")
OUT = os.environ.get("OUT", "/verif/lean/Verif/Model")
HAND = os.path.join(os.path.dirname(os.path.abspath(__file__)), "handwritten")

FILES = {
    "hytera": ["radio_ip", "radio_id", "gpsdata", "datetimestring", "intervalstring",
               "data_delivery_states", "data_transmit_protocol", "location_protocol",
               "radio_control_protocol", "radio_registration_service", "telemetry_protocol",
               "text_message_protocol", "hytera_dmr_application_protocol",
               "hytera_radio_network_protocol", "hytera_simple_transport_reliability_protocol",
               "ip_site_connect_heartbeat", "ip_site_connect_protocol", "real_time_transport_protocol"],
    "etsi": ["dmr_csbk", "dmr_data", "dmr_data_header", "dmr_ip_udp", "full_link_control"],
    "homebrew": ["homebrew2015", "mmdvm2020"],
    "motorola": ["automatic_registration_service", "motorola_binary_xml", "text_message_protocol"],
}
PRIM = {"read_u1": ("readU1", "Nat"), "read_u2be": ("readU2be", "Nat"), "read_u2le": ("readU2le", "Nat"),
        "read_u4be": ("readU4be", "Nat"), "read_u4le": ("readU4le", "Nat"), "read_s2be": ("readS2be", "Int"),
        "read_bytes_full": ("readBytesFull", "Bytes")}
CODEC = {"ascii": "decodeAscii", "utf-8": "decodeUtf8", "utf-16le": "decodeUtf16le", "utf-16-le": "decodeUtf16le",
         "utf-16-be": "decodeUtf16be"}
KEYWORDS = {"end", "open", "private", "class", "local", "prefix", "at", "by", "do", "from", "have", "show", "then",
            "if", "else", "match", "with", "let", "in", "where", "section", "instance", "deriving", "variable",
            "universe", "def", "theorem", "example", "structure", "inductive", "import", "protected", "set_option"}

def camel(s): return "".join(w[:1].upper() + w[1:] for w in s.split("_"))
def lcamel(s): return s[:1].lower() + s[1:]
def ident(s): return "«%s»" % s if s in KEYWORDS else s
def die(node, why): raise SystemExit("unsupported (%s) at line %s: %s" % (why, node.lineno, ast.unparse(node)))

class Cls:
    pass

class Translator:
    def __init__(self, pkg, mod):
        self.pkg, self.mod = pkg, mod
        self.path = "okdmr/kaitai/%s/%s.py" % (pkg, mod)
        self.src = open(os.path.join(REPO, self.path)).read()
        tree = ast.parse(self.src)
        self.root = [n for n in tree.body if isinstance(n, ast.ClassDef)][0]
        self.imports = []
        for n in tree.body:
            if isinstance(n, ast.ImportFrom) and n.module.startswith("okdmr.kaitai"):
                self.imports += [a.name for a in n.names]
        self.fullpkg = {}
        self.out = []
        self.enums = {}
        self.subs = {}
        self.params = {}     # class name -> list of (kind, leanname, leantype)
        for n in self.root.body:
            if isinstance(n, ast.ClassDef):
                if n.bases[0].id == "Enum": self.enums[n.name] = n
                else: self.subs[n.name] = n

    def cite(self, a, b=None):
        if b is None: a, b = a.lineno, a.end_lineno
        return "%s:%d-%d" % (self.path, a, b) if a != b else "%s:%d" % (self.path, a)

    # ---- enums
    def enum(self, n):
        q = self.root.name + "." + n.name
        mem = []
        for st in n.body:
            assert isinstance(st, ast.Assign) and isinstance(st.value, ast.Constant)
            mem.append((st.targets[0].id, st.value.value))
        o = ["/-- %s `class %s(Enum)`. -/" % (self.cite(n), n.name), "inductive %s where" % q]
        o += ["  | %s" % ident(m) for m, _ in mem]
        o += ["  deriving DecidableEq", "",
              "/-- %s values of `%s`. -/" % (self.cite(n), n.name),
              "def %s.toNat : %s → Nat" % (q, q)]
        o += ["  | .%s => %d" % (ident(m), v) for m, v in mem]
        o += ["", "/-- %s `%s` as a Python enumeration. -/" % (self.cite(n), n.name),
              "instance %s.instPyEnum : PyEnum %s where" % (q, q),
              "  all := [%s]" % ", ".join("." + ident(m) for m, _ in mem),
              "  value := %s.toNat" % q, ""]
        return o

    # ---- helpers on expressions
    def is_io(self, n):
        return isinstance(n, ast.Attribute) and n.attr == "_io" and isinstance(n.value, ast.Name) and n.value.id == "self"

    def io_call(self, n):
        if isinstance(n, ast.Call) and isinstance(n.func, ast.Attribute) and self.is_io(n.func.value):
            return n.func.attr
        return None

    def attr_chain(self, n):
        xs = []
        while isinstance(n, ast.Attribute):
            xs.append(n.attr); n = n.value
        if not isinstance(n, ast.Name): return None
        xs.append(n.id)
        return xs[::-1]

    def need_param(self, name, ty):
        ps = self.params[self.cur]
        if (name, ty) not in ps: ps.append((name, ty))

    def const(self, n):
        v = n.value
        if isinstance(v, bool): return "true" if v else "false"
        if isinstance(v, int): return str(v)
        if isinstance(v, bytes): return "[" + ", ".join("0x%02x" % b for b in v) + "]"
        if isinstance(v, str): return '"%s".toList' % v
        die(n, "const")

    def value(self, n, pre):
        """pure expression; returns (lean, type); io queries are hoisted into `pre`"""
        if isinstance(n, ast.Constant): return self.const(n), "lit"
        c = self.io_call(n)
        if c in ("is_eof", "size", "pos"):
            v = {"is_eof": "eof", "size": "io_size", "pos": "io_pos"}[c]
            self.cnt += 1
            v = "%s%d" % (v, self.cnt)
            pre.append("let %s ← %s" % (v, {"is_eof": "isEof", "size": "sizeIo", "pos": "posIo"}[c]))
            return v, {"is_eof": "Bool"}.get(c, "Nat")
        ch = self.attr_chain(n)
        if ch:
            if ch[0] == "self" and ch[1] == "_parent" and len(ch) == 3:
                nm = "parent_" + ch[2]
                self.need_param(nm, "Nat"); return nm, "Nat"
            if ch[0] == "self" and ch[1] == "_root" and len(ch) == 4:
                nm = "root_" + ch[2]
                self.need_param(nm, self.root.name + ".MessageHeaderBits")
                return "%s.%s" % (nm, ident(ch[3])), self.field_type_of(ch[2], ch[3])
            if ch[0] == "self" and len(ch) == 2 and ch[1] in self.fields:
                return ident(ch[1]), self.fields[ch[1]]
            if ch[0] == "self" and len(ch) == 3 and ch[1] in self.fields:
                return "%s.%s" % (ident(ch[1]), ident(ch[2])), "Nat"
            if ch[0] == self.root.name and len(ch) == 3 and ch[1] in self.enums:
                return ".known .%s" % ident(ch[2]), "enum"
            if ch == ["_on"]: return "on", self.fields["_on"]
            if ch[0] == "_" and len(ch) == 2: return "x.%s" % ch[1], "Bool"
            if ch == ["_"]: return "x", "Nat"
        if isinstance(n, ast.BinOp) and isinstance(n.op, ast.Sub):
            a, _ = self.value(n.left, pre); b, _ = self.value(n.right, pre)
            return "((%s : Int) - (%s : Int))" % (a, b), "Int"
        if isinstance(n, ast.BinOp) and isinstance(n.op, ast.BitAnd):
            a, _ = self.value(n.left, pre); b, _ = self.value(n.right, pre)
            return "(%s &&& %s)" % (a, b), "Nat"
        die(n, "value")

    def field_type_of(self, a, b):
        return "Bool" if b.endswith("_bit") or b in ("acknowledgement_required",) else "Nat"

    def cond(self, n, pre):
        """boolean expression as a Lean Bool"""
        if isinstance(n, ast.UnaryOp) and isinstance(n.op, ast.Not):
            return "!(%s)" % self.cond(n.operand, pre)
        if isinstance(n, ast.BoolOp):
            op = " && " if isinstance(n.op, ast.And) else " || "
            return op.join("(%s)" % self.cond(v, pre) for v in n.values)
        if isinstance(n, ast.Compare):
            a, _ = self.value(n.left, pre); b, _ = self.value(n.comparators[0], pre)
            op = {ast.Eq: "=", ast.NotEq: "≠", ast.GtE: "≥", ast.LtE: "≤", ast.Gt: ">"}[type(n.ops[0])]
            return "decide (%s %s %s)" % (a, op, b)
        v, _ = self.value(n, pre)
        return v

    def reader(self, n, pre):
        """expression that reads; returns (lean reader, lean type)"""
        c = self.io_call(n)
        if c in PRIM: return PRIM[c]
        if c == "read_bytes":
            v, t = self.value(n.args[0], pre)
            if t == "Int": return "readBytesInt %s" % v, "Bytes"
            return "readBytes %s" % v, "Bytes"
        if c == "read_bits_int_be": return "readBitsIntBe %d" % n.args[0].value, "Nat"
        if isinstance(n, ast.Compare) and self.io_call(n.left) == "read_bits_int_be":
            assert n.left.args[0].value == 1 and isinstance(n.ops[0], ast.NotEq) and n.comparators[0].value == 0
            return "readFlag", "Bool"
        if isinstance(n, ast.Call) and isinstance(n.func, ast.Attribute):
            if n.func.attr == "resolve_enum":
                ch = self.attr_chain(n.args[0])
                assert ch[0] == self.root.name and ch[1] in self.enums
                r, t = self.reader(n.args[1], pre)
                e = self.root.name + "." + ch[1]
                return "asEnum %s (%s)" % (e, r), "EnumVal " + e
            if n.func.attr == "decode":
                r, t = self.reader(n.func.value, pre)
                assert t == "Bytes"
                return "decodeWith %s (%s)" % (CODEC[n.args[0].value.lower()], r), "PyStr"
            ch = self.attr_chain(n.func)
            if ch and ch[0] == self.root.name and len(ch) == 2 and ch[1] in self.subs:
                assert [ast.unparse(a) for a in n.args] == ["self._io", "self", "self._root"]
                r = "%s.%s.read" % (self.root.name, ch[1])
                for (nm, ty) in self.params[ch[1]]:
                    if nm.startswith("parent_"):
                        r += " " + ident(nm[7:])
                    elif self.cur == self.root.name:
                        r += " " + ident(nm[5:])
                    else:
                        self.need_param(nm, ty); r += " " + nm
                return r, "%s.%s" % (self.root.name, ch[1])
            if ch and ch[0] in self.imports and len(ch) == 2:
                assert [ast.unparse(a) for a in n.args] == ["self._io"]
                return "%s.read" % ch[1], ch[1]
        die(n, "reader")

    def target(self, st):
        t = st.targets[0]
        if isinstance(t, ast.Attribute) and isinstance(t.value, ast.Name) and t.value.id == "self": return t.attr
        return None

    # ---- _read
    def clazz(self, n, qual):
        self.cur = n.name
        self.params.setdefault(n.name, [])
        self.fields = {}
        self.cnt = 0
        rd = [f for f in n.body if isinstance(f, ast.FunctionDef) and f.name == "_read"][0]
        unions = []
        lines = []
        body = rd.body
        i = 0
        while i < len(body):
            st = body[i]
            if isinstance(st, ast.Pass): i += 1; continue
            if isinstance(st, ast.Expr) and self.io_call(st.value) == "align_to_byte":
                lines.append("alignToByte"); i += 1; continue
            if isinstance(st, ast.Assign):
                t = self.target(st)
                if t is None and st.targets[0].id == "_on":
                    pre = []
                    v, ty = self.value(st.value, pre)
                    lines += pre
                    self.fields["_on"] = ty
                    i += 1
                    attr, ul, ty = self.switch(body[i], v, n, qual, unions)
                    lines += ul
                    self.fields[attr] = ty
                    i += 1; continue
                if isinstance(st.value, ast.List) and not st.value.elts:
                    j = i + 1
                    if isinstance(body[j], ast.Assign): j += 1     # i = 0
                    l, ty = self.loop(t, body[j])
                    lines += l
                    self.fields[t] = ty
                    i = j + 1; continue
                pre = []
                r, ty = self.reader(st.value, pre)
                lines += pre + ["let %s ← %s" % (ident(t), r)]
                self.fields[t] = ty
                i += 1; continue
            if isinstance(st, ast.If):
                if len(st.body) == 1 and isinstance(st.body[0], ast.Raise):
                    # if not self.x == C: raise ValidationNotEqualError(C, self.x, self._io, path)
                    cmp = st.test.operand
                    call = st.body[0].exc
                    assert call.func.attr == "ValidationNotEqualError"
                    assert ast.unparse(call.args[0]) == ast.unparse(cmp.comparators[0])
                    assert ast.unparse(call.args[1]) == ast.unparse(cmp.left)
                    v, _ = self.value(cmp.left, [])
                    lines.append("validateEq %s %s \"%s\"" % (v, self.const(cmp.comparators[0]), call.args[3].value))
                    i += 1; continue
                assert not st.orelse
                pre = []
                c = self.cond(st.test, pre)
                b = st.body
                t = self.target(b[0])
                if isinstance(b[0].value, ast.List):
                    l, ty = self.loop(t, b[2] if isinstance(b[1], ast.Assign) else b[1], c)
                    lines += pre + l
                    self.fields[t] = ty
                else:
                    assert len(b) == 1
                    r, ty = self.reader(b[0].value, pre)
                    lines += pre + ["let %s ← optionally (%s) (%s)" % (ident(t), c, r)]
                    self.fields[t] = "Option (%s)" % ty
                i += 1; continue
            die(st, "statement")
        fl = [(k, v) for k, v in self.fields.items() if k != "_on"]
        o = []
        for u in unions: o += u + [""]
        o += ["/-- %s attributes of `%s`. -/" % (self.cite(rd), qual), "structure %s where" % qual]
        o += ["  %s : %s" % (ident(k), v) for k, v in fl]
        o += ["  deriving DecidableEq", ""]
        ps = "".join(" (%s : %s)" % p for p in self.params[n.name])
        o += ["/-- %s `%s._read`. -/" % (self.cite(rd), qual)]
        if not lines:
            o += ["def %s.read%s : Rd %s := return {}" % (qual, ps, qual), ""]
        else:
            o += ["def %s.read%s : Rd %s := do" % (qual, ps, qual)]
            o += ["  " + l.replace("\n", "\n  ") for l in lines]
            o += ["  return { %s }" % ", ".join(ident(k) for k, _ in fl), ""]
        return o

    def loop(self, t, st, c=None):
        """for/while loops filling self.t"""
        pre = []
        if isinstance(st, ast.For):
            n, _ = self.value(st.iter.args[0], pre)
            call = st.body[0].value
            assert call.func.attr == "append"
            r, ty = self.reader(call.args[0], pre)
            assert c is None
            return pre + ["let %s ← repeatN %s (%s)" % (ident(t), n, r)], "List (%s)" % ty
        assert isinstance(st, ast.While)
        if isinstance(st.test, ast.Constant):
            r, ty = self.reader(st.body[0].value, pre)
            brk = st.body[2]
            assert isinstance(brk.body[0], ast.Break)
            p2 = []
            cc = self.cond(brk.test, p2)
            p2 = "".join(x + "; " for x in p2)
            e = "repeatUntil fuel (%s) (fun %s => do %sreturn %s)" % (r, "x" if "x" in re.findall(r"\w+", cc) else "_", p2, cc)
        else:
            assert ast.unparse(st.test) == "not self._io.is_eof()"
            r, ty = self.reader(st.body[0].value.args[0], pre)
            e = "repeatEos fuel (%s)" % r
        pre.insert(0, "let fuel ← loopFuel")
        if c is None: return pre + ["let %s ← %s" % (ident(t), e)], "List (%s)" % ty
        return pre + ["let %s ← optionally (%s) (%s)" % (ident(t), c, e)], "Option (List (%s))" % ty

    def switch(self, st, on, n, qual, unions):
        branches = []
        els = None
        first = st
        while True:
            assert len(st.body) == 1
            assert ast.unparse(st.test.left) == "_on" and isinstance(st.test.ops[0], ast.Eq)
            v, _ = self.value(st.test.comparators[0], [])
            branches.append((v, st.body[0]))
            if not st.orelse: break
            if len(st.orelse) == 1 and isinstance(st.orelse[0], ast.If): st = st.orelse[0]; continue
            els = st.orelse[0]; break
        attr = self.target(branches[0][1])
        uname = "%s.%sUnion" % (qual, camel(attr))
        cons = []
        def con(ty):
            nm = lcamel(ty.split(".")[-1])
            if (nm, ty) not in cons: cons.append((nm, ty))
            return nm
        ls = []
        args = []
        def note(r):
            for w in r.split()[1:]:
                w0 = w.strip("«»")
                t = self.fields[w0] if w0 in self.fields else dict(self.params[self.cur])[w0]
                if (w, t) not in args: args.append((w, t))
        for k, (v, a) in enumerate(branches):
            assert self.target(a) == attr
            pre = []
            r, ty = self.reader(a.value, pre); assert not pre
            note(r)
            wrap = ".%s x" % con(ty) if els is not None else "some (.%s x)" % con(ty)
            ls.append("%s on = %s then do let x ← %s; return %s" % ("if" if k == 0 else "else if", v, r, wrap))
        if els is not None:
            r, ty = self.reader(els.value, [])
            note(r)
            ls.append("else do let x ← %s; return .%s x" % (r, con(ty)))
        else:
            ls.append("else return none")
        u = ["/-- %s possible objects in `%s.%s`. -/" % (self.cite(branches[0][1].lineno, st.end_lineno), qual, attr),
             "inductive %s where" % uname]
        u += ["  | %s (x : %s)" % c for c in cons]
        u += ["  deriving DecidableEq"]
        unions.append(u)
        ty = uname if els is not None else "Option %s" % uname
        nm = "%s.read%s" % (qual, camel(attr))
        ps = "".join(" (%s : %s)" % a for a in [("on", self.fields["_on"])] + args)
        unions.append(["/-- %s the `if _on == ...` chain of `%s._read`. -/" % (self.cite(first.lineno, st.end_lineno), qual),
                       "def %s%s : Rd (%s) :=" % (nm, ps, ty)] + ["  " + l for l in ls])
        return attr, ["let %s ← %s %s" % (ident(attr), nm, " ".join(["(%s)" % on if " " in on else on] + [a for a, _ in args]))], ty

    def deps(self, n):
        d = []
        for x in ast.walk(n):
            if isinstance(x, ast.Attribute) and isinstance(x.value, ast.Name) and x.value.id == self.root.name and x.attr in self.subs:
                if x.attr not in d: d.append(x.attr)
        return d

    def run(self):
        P = camel(self.pkg)
        M = camel(self.mod)
        o = ["import Verif.Runtime"]
        for m in self.imports:
            o.append("import Verif.Model.%s.%s" % (P, camel(m)))
        o += ["/-", "Model of %s (generated by tools/py2lean.py from the Python AST;" % self.path,
              "definitions marked \"hand-written\" are not)." , "-/", "", "namespace Dmr.%s" % P, ""]
        for e in self.enums.values(): o += self.enum(e)
        done = []
        def visit(name):
            if name in done: return
            n = self.subs[name]
            rd = [f for f in n.body if isinstance(f, ast.FunctionDef) and f.name == "_read"][0]
            for d in self.deps(rd):
                if d != name: visit(d)
            done.append(name)
            h = os.path.join(HAND, "%s.%s.%s.lean.txt" % (P, M, name))
            if os.path.exists(h):
                self.params.setdefault(name, [])
                o.extend(open(h).read().rstrip("\n").split("\n") + [""])
            else:
                o.extend(self.clazz(n, self.root.name + "." + name))
        if "MessageHeaderBits" in self.subs: visit("MessageHeaderBits")
        for s in self.subs: visit(s)
        h = os.path.join(HAND, "%s.%s.%s.lean.txt" % (P, M, self.root.name))
        if os.path.exists(h): o.extend(open(h).read().rstrip("\n").split("\n") + [""])
        else: o.extend(self.clazz(self.root, self.root.name))
        h = os.path.join(HAND, "%s.%s.extra.lean.txt" % (P, M))
        if os.path.exists(h): o.extend(open(h).read().rstrip("\n").split("\n") + [""])
        o += ["end Dmr.%s" % P, ""]
        d = os.path.join(OUT, P)
        os.makedirs(d, exist_ok=True)
        open(os.path.join(d, M + ".lean"), "w").write("\n".join(o))
        return "Verif.Model.%s.%s" % (P, M)

if __name__ == "__main__":
    for pkg, ms in FILES.items():
        for m in ms:
            if len(sys.argv) > 1 and m not in sys.argv[1:]: continue
            print("import", Translator(pkg, m).run())
