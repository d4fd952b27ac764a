#!/usr/bin/env python3
"""Generate lean/Verif/Model/Tools/PyView.lean: every decoded object as a Python object (`__dict__` in assignment order),
from the structures of the model."""
import re, os
BASE = os.path.join(os.path.dirname(os.path.abspath(__file__)), "..", "lean")
mods = [l.split()[1] for l in open(os.path.join(BASE, "Verif.lean")) if l.startswith("import Verif.Model.") and "Tools" not in l and "MotorolaUtils" not in l and "Lazy" not in l and "Properties" not in l and "EnumNames" not in l]
SKIP = {"DmrDataHeader.Obj"}
# caches of properties that `_read` itself evaluates: class -> {attribute: entry inserted before it}
BEFORE = {
    "RealTimeTransportProtocol": {"m_len_padding": 'PyVal.optAttr "_m_len_padding_if_exists" (if x.fixed_header.padding then some (.int (Int.ofNat x.m_len_padding)) else .none)'},
    "Hytera/TextMessageProtocol": {"tmdata": 'PyVal.optAttr "_m_option_sum_len" (x.tmdata.map fun _ => .int (match x.option_field_len with | some n => Int.ofNat n + 2 | .none => 0))'},
    "Motorola/TextMessageProtocol": {"pdu_content": 'PyVal.attr "_m_custom_pdu_type" (.int (Int.ofNat (TextMessageProtocol.customPduType x.message_header)))'},
    "Homebrew2015": {"command_data": 'PyVal.optAttr "_m_fifth_letter" (x.command_data.bind Homebrew2015.CommandDataUnion.fifthLetter)'},
    "Mmdvm2020": {"command_data": 'PyVal.optAttr "_m_fifth_letter" (x.command_data.bind Mmdvm2020.CommandDataUnion.fifthLetter)'},
}
# RTP reads audio_data after the caches are set
ORDER = {"RealTimeTransportProtocol": ["fixed_header", "header_extension", "m_len_padding", "audio_data", "padding"]}
PRE = {}
for c, path, lines in (("Homebrew2015", "homebrew2015.py", "282-291"), ("Mmdvm2020", "mmdvm2020.py", "358-367")):
    PRE[c] = """/-- okdmr/kaitai/homebrew/%s:%s the cached `fifth_letter`, which is only evaluated for a configuration or closing:
the letter of `RPTCL`, or the first byte of the repeater id that follows `RPTC` (both decoded as ASCII by then), for a packet at the beginning of its stream. -/
def %s.CommandDataUnion.fifthLetter : %s.CommandDataUnion → Option PyVal
  | .typeRepeaterConfigurationOrClosing ⟨.typeRepeaterClosing _⟩ => some (.str ['L'])
  | .typeRepeaterConfigurationOrClosing ⟨.typeRepeaterConfiguration x⟩ => some (.str [Char.ofNat (x.repeater_id / 2 ^ 24)])
  | _ => .none
""" % (path, lines, c, c)
out = ["import Verif.Model.Tools.PyVal"] + ["import " + m for m in mods]
out += ["/-", "Generated by tools/mkpyview.py: every decoded object as a Python object, with its `__dict__` in assignment order.", "-/", ""]
unk = []
n = 0
for m in mods:
    t = open(os.path.join(BASE, m.replace(".", "/") + ".lean")).read()
    ns = re.search(r"^namespace (\S+)", t, re.M).group(1)
    out += ["namespace " + ns, ""]
    def conv(ty, x):
        ty = ty.strip()
        while ty.startswith("(") and ty.endswith(")"): ty = ty[1:-1].strip()
        if ty == "Nat": return ".int (Int.ofNat %s)" % x
        if ty == "Int": return ".int %s" % x
        if ty == "Bytes": return ".bytes %s" % x
        if ty == "Bool": return ".bool %s" % x
        if ty == "PyStr": return ".str %s" % x
        if ty.startswith("EnumVal "): return 'EnumVal.toPy "%s" %s' % (ty[8:].split(".")[-1], x)
        if ty.startswith("List "): return ".list (List.map (fun y => %s) %s)" % (conv(ty[5:], "y"), x)
        if re.fullmatch(r"[A-Z][\w.]*", ty): return "%s.toPy %s" % (ty, x)
        unk.append(ty); return "?"
    for mm in re.finditer(r"^/-- ((?:(?!-/)[\s\S])*) -/\n(structure|inductive) (\S+) where\n((?:  .*\n)*)", t, re.M):
        doc, kind, name, body = mm.groups()
        cite = re.match(r"\S+", doc).group(0)
        if name in SKIP: continue
        lines = [l.strip() for l in body.split("\n") if l.strip() and not l.strip().startswith("deriving") and not l.strip().startswith("/--")]
        if kind == "inductive":
            if not name.endswith("Union"): continue
            out += ["/-- %s the object in the union. -/" % cite, "def %s.toPy : %s → PyVal" % (name, name)]
            for l in lines:
                c = re.match(r"\| (\S+) \(x : (.*)\)$", l)
                out.append("  | .%s x => %s" % (c.group(1), conv(c.group(2), "x")))
            out.append("")
            continue
        n += 1
        cls = ns.split(".")[-1] + "." + name
        es = []
        key = name if name in BEFORE else ns.split(".")[-1] + "/" + name
        fl = [re.match(r"(\S+) : (.*)$", l).groups() for l in lines]
        if name in ORDER: fl.sort(key=lambda a: ORDER[name].index(a[0]))
        if name in PRE: out.append(PRE[name])
        for f, ty in fl:
            if f in BEFORE.get(key, {}): es.append(BEFORE[key][f])
            py = f.strip("«»")
            if py.startswith("m_"): py = "_" + py
            if ty.startswith("Option "):
                es.append('PyVal.optAttr "%s" (x.%s.map fun y => %s)' % (py, f, conv(ty[7:], "y")))
            else:
                es.append('PyVal.attr "%s" (%s)' % (py, conv(ty, "x." + f)))
        out += ["/-- %s `%s` as a Python object. -/" % (cite, name)]
        arg = "x" if es else "_x"
        out += ["def %s.toPy (%s : %s) : PyVal :=" % (name, arg, name)]
        if es:
            out += ['  .object "%s"' % cls, "    [" + ",\n     ".join(es) + "]", ""]
        else:
            out += ['  .object "%s" []' % cls, ""]
    out += ["end " + ns, ""]
open(os.path.join(BASE, "Verif", "Model", "Tools", "PyView.lean"), "w").write("\n".join(out))
print(n, "classes; unknown:", unk)

# lean/Verif/Props/PrettyprintLibrary.lean: every object of the library, and that none holds a dictionary
objs, unions, ns = [], [], None
for l in out:
    mm = re.match(r"namespace (\S+)", l)
    if mm: ns = mm.group(1)
    mm = re.match(r"def (\S+)\.toPy \(_?x : (\S+)\) : PyVal", l)
    if mm: objs.append((ns, mm.group(1), "o"))
    mm = re.match(r"def (\S+)\.toPy : (\S+) → PyVal", l)
    if mm: objs.append((ns, mm.group(1), "u"))
L = """import Verif.Props.Prettyprint
/-
Generated by tools/mkpyview.py. Property C45 for every class of the library.
-/

namespace Dmr.Tools

theorem noDictIn_iff : ∀ l, noDictIn l ↔ ∀ v ∈ l, noDict v
  | [] => by simp [noDictIn]
  | v :: vs => by simp [noDictIn, noDictIn_iff vs]

theorem noDictInValues_append : ∀ l l', noDictInValues (l ++ l') ↔ noDictInValues l ∧ noDictInValues l'
  | [], l' => by simp [noDictInValues]
  | (_, v) :: vs, l' => by simp [noDictInValues, noDictInValues_append vs, and_assoc]

theorem noDict_object (cls : String) (l : List (List (String × PyVal))) :
    noDict (.object cls l) ↔ noDictInValues l.flatten := by
  simp [PyVal.object, noDict, noDictInValues]

theorem noDict_flatten_cons (a : List (String × PyVal)) (l : List (List (String × PyVal))) :
    noDictInValues (a :: l).flatten ↔ noDictInValues a ∧ noDictInValues l.flatten := by
  rw [List.flatten_cons, noDictInValues_append]

theorem noDict_attr (k : String) (v : PyVal) : noDictInValues (PyVal.attr k v) ↔ noDict v := by
  simp [PyVal.attr, noDictInValues]

theorem noDict_optAttr (k : String) (f : α → PyVal) (o : Option α) (h : ∀ x, noDict (f x)) :
    noDictInValues (PyVal.optAttr k (o.map f)) := by
  cases o with
  | none => simp [PyVal.optAttr, noDictInValues]
  | some a => simp [PyVal.optAttr, noDictInValues, h]

theorem noDict_optAttr' (k : String) (o : Option PyVal) (h : ∀ v, o = some v → noDict v) :
    noDictInValues (PyVal.optAttr k o) := by
  cases o with
  | none => simp [PyVal.optAttr, noDictInValues]
  | some a => simp [PyVal.optAttr, noDictInValues, h a rfl]

theorem noDict_enum (cls : String) [PyEnum E] (e : EnumVal E) : noDict (EnumVal.toPy cls e) := by
  cases e <;> simp [EnumVal.toPy, noDict]

theorem noDict_list (f : α → PyVal) (l : List α) (h : ∀ x, noDict (f x)) : noDict (.list (l.map f)) := by
  rw [noDict, noDictIn_iff]
  intro v hv
  obtain ⟨x, _, rfl⟩ := List.mem_map.1 hv
  exact h x

theorem noDict_int (i : Int) : noDict (.int i) := by simp [noDict]
theorem noDict_bool (i : Bool) : noDict (.bool i) := by simp [noDict]
theorem noDict_bytes (i : Bytes) : noDict (.bytes i) := by simp [noDict]
theorem noDict_str (i : PyStr) : noDict (.str i) := by simp [noDict]

end Dmr.Tools

open Dmr.Tools
""".split("\n")
def simple(term):
    pass
cur = None
body = "\n".join(out)
for ns, name, kind in objs:
    if ns != cur:
        if cur: L += ["end " + cur, ""]
        L += ["namespace " + ns, ""]
        cur = ns
    i = body.index("def %s.toPy " % name, body.index("namespace " + ns))
    src = body[i:body.index("\n\n", i)]
    if name in PRE:
        L += ["theorem %s.fifthLetter_noDict (o : Option %s.CommandDataUnion) (v : PyVal)" % (name, name),
              "    (h : o.bind %s.CommandDataUnion.fifthLetter = some v) : noDict v := by" % name,
              "  cases o with", "  | none => cases h", "  | some u =>",
              "    simp only [Option.bind_some] at h",
              "    unfold %s.CommandDataUnion.fifthLetter at h" % name,
              "    split at h <;> first | (cases h; exact noDict_str _) | cases h", ""]
    L += ["theorem %s.toPy_noDict (x : %s) : noDict x.toPy := by" % (name, name)]
    def prf(t):
        t = t.strip()
        if t.startswith(".int "): return "noDict_int _"
        if t.startswith(".bool "): return "noDict_bool _"
        if t.startswith(".bytes "): return "noDict_bytes _"
        if t.startswith(".str "): return "noDict_str _"
        if t.startswith("EnumVal.toPy "): return "noDict_enum _ _"
        mm = re.match(r"\.list \(List\.map \(fun y => (.*)\) ([\w.«»]+)\)$", t)
        if mm: return "noDict_list _ _ fun y => %s" % prf(mm.group(1))
        mm = re.match(r"(\S+)\.toPy (\S+)$", t)
        if mm: return "%s.toPy_noDict %s" % mm.groups()
        raise Exception(t)
    if kind == "u":
        L += ["  cases x with"]
        for mm in re.finditer(r"\| \.(\S+) x => (.*)", src):
            L += ["  | %s x => exact %s" % (mm.group(1), prf(mm.group(2)))]
        L += [""]
        continue
    ents = re.findall(r"^\s+\[?(PyVal\.\w+) \"(\w+)\" (.*?)[,\]]?$", src, re.M)
    ps = []
    for k, a, t in ents:
        if k == "PyVal.attr":
            assert t[0] == "(" and t[-1] == ")"
            ps.append("(noDict_attr _ _).2 (%s)" % prf(t[1:-1]))
        else:
            mm = re.match(r"\(([\w.«»]+)\.map fun y => (.*)\)$", t)
            if mm and not a.startswith("_m_"): ps.append("noDict_optAttr _ _ _ fun y => %s" % prf(mm.group(2)))
            elif "fifthLetter" in t: ps.append("noDict_optAttr' _ _ fun v hv => %s.fifthLetter_noDict x.command_data v hv" % name)
            elif ".map fun _ => .int" in t: ps.append("noDict_optAttr _ _ _ fun _ => noDict_int _")
            else: ps.append("noDict_optAttr' _ _ (by intro v hv; split at hv <;> cases hv; exact noDict_int _)")
    t = "by simp [noDictInValues]"
    L += ["  refine (noDict_object _ _).2 ?_"]
    for p in ps: L += ["  refine (noDict_flatten_cons _ _).2 ⟨%s, ?_⟩" % p]
    L += ["  simp [noDictInValues]", ""]
L += ["end " + cur, "", "namespace Dmr.Tools", ""] + """theorem ipsc_accesses_caches (ps : List Hytera.IpSiteConnectProtocol.Property) :
    ∀ (o : Hytera.IpSiteConnectProtocol.Obj), noDictInValues o.caches → noDictInValues (o.accesses ps).2.caches ∧
      (o.accesses ps).2.attrs = o.attrs := by
  induction ps with
  | nil => exact fun o h => ⟨h, rfl⟩
  | cons p ps ih =>
    intro o h
    have h1 : noDictInValues (o.access p).2.caches ∧ (o.access p).2.attrs = o.attrs := by
      unfold Hytera.IpSiteConnectProtocol.Obj.access
      split
      · exact ⟨h, rfl⟩
      · refine ⟨(noDictInValues_append _ _).2 ⟨h, ?_⟩, rfl⟩
        cases p <;> simp [Hytera.IpSiteConnectProtocol.compute, noDictInValues, noDict]
    have h2 := ih _ h1.1
    exact ⟨h2.1, h2.2.trans h1.2⟩

theorem ipsc_accesses_noDict (x : Hytera.IpSiteConnectProtocol) (ps : List Hytera.IpSiteConnectProtocol.Property) :
    noDict (Hytera.IpSiteConnectProtocol.Obj.accesses ⟨x, []⟩ ps).2.toPy := by
  obtain ⟨h1, h2⟩ := ipsc_accesses_caches ps ⟨x, []⟩ (by simp [noDictInValues])
  have h3 := x.toPy_noDict
  unfold Hytera.IpSiteConnectProtocol.Obj.toPy
  rw [h2]
  generalize x.toPy = v at h3
  cases v with
  | struct c a => simp only [noDict] at h3 ⊢; exact (noDictInValues_append _ _).2 ⟨h3, h1⟩
  | _ => exact h3
""".split("\n") + [
 "/-- The objects of the library: an instance of a class of the model, or an IPSC packet whose properties have been used. -/",
 "inductive LibraryObject : PyVal → Prop where"]
for ns, name, kind in objs:
    if kind == "o": L.append("  | %s_%s (x : %s.%s) : LibraryObject x.toPy" % (ns.split(".")[-1], name.replace(".", "_"), ns, name))
L += ["  | used_IpSiteConnectProtocol (x : Dmr.Hytera.IpSiteConnectProtocol) (ps : List Dmr.Hytera.IpSiteConnectProtocol.Property) :",
      "      LibraryObject (Dmr.Hytera.IpSiteConnectProtocol.Obj.accesses ⟨x, []⟩ ps).2.toPy", "",
 "theorem LibraryObject.noDict {v : PyVal} (h : LibraryObject v) : noDict v := by", "  cases h with"]
for ns, name, kind in objs:
    if kind == "o": L.append("  | %s_%s x => exact x.toPy_noDict" % (ns.split(".")[-1], name.replace(".", "_")))
L += ["  | used_IpSiteConnectProtocol x ps => exact ipsc_accesses_noDict x ps", "", """/-- C45: every object of the library, in whatever state of use, is printed as the one dictionary the specification allows, and no
protocol object remains in it. -/
theorem C45_library (v : PyVal) (h : LibraryObject v) :
    ∃ cls attrs items, v = .struct cls attrs ∧ prettyprint v = .ok (.dict items) ∧ Printed v (.dict items) ∧
      noObject (.dict items) := by
  have hs : ∃ cls attrs, v = .struct cls attrs := by
    cases h with
    | used_IpSiteConnectProtocol x ps => exact ⟨_, _, rfl⟩
    | _ => exact ⟨_, _, rfl⟩
  obtain ⟨cls, attrs, rfl⟩ := hs
  obtain ⟨items, h1, h2, _⟩ := C45_structure cls attrs
  obtain ⟨items', h1', h3⟩ := C45_no_object cls attrs h.noDict
  rw [h1] at h1'
  cases h1'
  exact ⟨cls, attrs, items, rfl, h1, (h2 _).2 rfl, h3⟩

/-- An address: the bookkeeping attributes are not shown. -/
example : prettyprint (Hytera.RadioIp.toPy ⟨10, 0, 4, 210⟩) =
    .ok (.dict [("subnet", .int 10), ("radio_id_1", .int 0), ("radio_id_2", .int 4), ("radio_id_3", .int 210)]) := by
  simp [Hytera.RadioIp.toPy, prettyprint, PyVal.object, PyVal.attr, prettyAttrs, hiddenAttributes, prettyValue]

/-- A list of objects in an object, and a list in a list. -/
example : prettyprint (.struct "Outer" [("_io", .stream), ("n", .int 1),
      ("items", .list [.struct "Inner" [("_parent", .backref), ("a", .bytes [1, 2])], .list [.struct "Inner" []], .none])]) =
    .ok (.dict [("n", .int 1), ("items", .list [.dict [("a", .bytes [1, 2])], .list [.dict []], .none])]) := by
  simp [prettyprint, prettyAttrs, prettyItems, hiddenAttributes, prettyValue]

end Dmr.Tools
"""]
open(os.path.join(BASE, "Verif", "Props", "PrettyprintLibrary.lean"), "w").write("\n".join(L))
