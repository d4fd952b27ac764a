#!/usr/bin/env python3
"""Mutation testing. Edits a scratch copy of the Lean project the way a bug would change the program, rebuilds it, and reports
which theorems no longer prove. A theorem that fails is replaced by an unproved one in the scratch copy only, so that the
theorems behind it are tried as well; theorems whose proof used a failed one are reported as 'indirect'.
  mutate.py FILE.py [id ...]   FILE.py defines MUTANTS = [{"id", "property", "claim", "definition", "edits": [(file, old, new)]}]"""
import subprocess, re, os, sys, json, shutil
SRC, DST = "/verif/lean", "/tmp/mut/lean"
START = re.compile(r"^(@\[[^\]]*\] )?(private |protected |noncomputable )*(theorem|lemma|example|def|instance|structure|inductive|abbrev|macro|open|namespace|end|section|variable|set_option|attribute|fixed_layout|parse_layout1?|/--|/-|#)")
BASE = "/tmp/mut/base"
def base():
    """The unedited project, with the two layout commands made tolerant, built once."""
    shutil.rmtree(BASE, ignore_errors=True)
    shutil.copytree(SRC, BASE, symlinks=True)
    p = BASE + "/Verif/Layout.lean"
    s = open(p).read()
    s = s.replace("simp only [Nat.mul_add, Nat.add_assoc, Nat.reduceMul, Nat.reduceAdd]; done)\n", "simp only [Nat.mul_add, Nat.add_assoc, Nat.reduceMul, Nat.reduceAdd]; done)\n        | sorry\n", 1)
    s = s.replace("        rd_layout [$ts,*]\n      · in_range", "        first | (rd_layout [$ts,*]; done) | sorry\n      · first | (in_range; done) | sorry")
    open(p, "w").write(s)
    print(subprocess.run(["lake", "build"], cwd=BASE, capture_output=True, text=True).stdout[-300:])
def prepare():
    shutil.rmtree(DST, ignore_errors=True)
    subprocess.run(["cp", "-a", BASE, DST], check=True)
def blocks(lines):
    st = [i for i, l in enumerate(lines) if START.match(l)]
    return st
def cut(text):
    """statement := by sorry"""
    d, i = 0, 0
    while i < len(text):
        c = text[i]
        if c in "([{⟨": d += 1
        elif c in ")]}⟩": d -= 1
        elif d == 0 and text.startswith(":=", i): return text[:i] + ":= by sorry\n"
        elif d == 0 and text.startswith("\n  | ", i): return text[:i] + " := by sorry\n"
        i += 1
    return None
AX = """import Verif
open Lean Elab Command
def isV (env : Environment) (n : Name) : Bool :=
  match env.getModuleIdxFor? n with
  | some i => (env.header.moduleNames[i.toNat]!).getRoot == `Verif
  | none => false
partial def dep (env : Environment) (n : Name) : StateM (Std.HashMap Name Bool) Bool := do
  if n == ``sorryAx then return true
  if !isV env n then return false
  if let some b := (← get)[n]? then return b
  modify (·.insert n false)
  let some c := env.find? n | return false
  let mut r := false
  for u in c.getUsedConstantsAsSet do
    if (← dep env u) then r := true
  if let .inductInfo v := c then
    for u in v.ctors do
      if (← dep env u) then r := true
  modify (·.insert n r)
  return r
elab "axall" : command => do
  let env ← getEnv
  let mut st : Std.HashMap Name Bool := {}
  for i in [0:env.header.moduleNames.size] do
    if (env.header.moduleNames[i]!).getRoot == `Verif then
      for n in env.header.moduleData[i]!.constNames do
        if let .str _ s := n then
          if s.length > 4 && s.toList[0]? == some 'C' && (s.toList[1]?.any Char.isDigit) && s.toList[3]? == some '_' then
            let (b, st') := (dep env n).run st
            st := st'
            if b then logInfo m!"SORRYAX {n}"
axall
"""
def build(target):
    r = subprocess.run(["lake", "build", target], cwd=DST, capture_output=True, text=True)
    return r.stdout + r.stderr
def run(m, target="Verif"):
    prepare()
    for e in m["edits"]:
        f, (d, old, new) = e[0], e[1:] if len(e) == 4 else ("",) + tuple(e[1:])
        p = os.path.join(DST, "Verif", f)
        s = open(p).read()
        a, b = 0, len(s)
        if d:  # only inside this definition
            hits = [x.start() for x in re.finditer(r"^(def|instance) %s(?=[ \n])" % re.escape(d), s, re.M)]
            assert len(hits) == 1, (m["id"], "definition", d, len(hits))
            a = hits[0]
            n = re.compile(r"^(/--|end |def |instance |theorem |structure |inductive |mutual|namespace )", re.M).search(s, a + 4)
            b = n.start() if n else len(s)
        assert s[a:b].count(old) == 1, (m["id"], f, s[a:b].count(old), old)
        open(p, "w").write(s[:a] + s[a:b].replace(old, new) + s[b:])
    failed, unclear = [], []
    for rnd in range(12):
        out = build(target)
        errs = {}
        for f, l in re.findall(r"^error: (Verif/\S+\.lean):(\d+):", out, re.M): errs.setdefault(f, set()).add(int(l))
        if not errs:
            if "error" in out: unclear.append(out[-600:])
            break
        for f, ls in errs.items():
            p = os.path.join(DST, f)
            lines = open(p).read().split("\n")
            st = blocks(lines)
            todo = set()
            for l in ls:
                c = [i for i in st if i <= l - 1]
                # skip doc comment starts
                todo.add(c[-1] if c else 0)
            for a in sorted(todo, reverse=True):
                nx = [i for i in st if i > a]
                b = nx[0] if nx else len(lines)
                txt = "\n".join(lines[a:b])
                mm = re.match(r"(@\[[^\]]*\] )?(private |protected )*(theorem|lemma|example|def|instance|fixed_layout|parse_layout1?)\s*(\S*)", txt)
                if not mm: unclear.append("%s:%d %s" % (f, a + 1, txt[:80])); continue
                kind, name = mm.group(3), mm.group(4)
                if kind == "example":
                    failed.append("example (%s:%d)" % (f, a + 1)); lines[a:b] = ["example : True := trivial"] + [""] * (b - a - 1)
                elif kind in ("theorem", "lemma"):
                    failed.append(name)
                    c = cut(txt)
                    if c is None or "by sorry" in txt: unclear.append("%s %s" % (f, name)); continue
                    n = b - a
                    new = c.split("\n"); lines[a:b] = new + [""] * (n - len(new))
                else: unclear.append("%s %s %s" % (f, kind, name))
            open(p, "w").write("\n".join(lines))
        if unclear: break
    indirect = []
    if not unclear:
        names = sorted(set(re.findall(r"^theorem (C\d\d_\w+)", "\n".join(open(os.path.join(d, x)).read() for d, _, fs in os.walk(DST + "/Verif/Props") for x in fs), re.M)))
        nsn = {}
        open(DST + "/Ax.lean", "w").write(AX)
        r = subprocess.run(["lake", "env", "lean", "Ax.lean"], cwd=DST, capture_output=True, text=True)
        dep = re.findall(r"SORRYAX (\S+)", r.stdout)
        if r.returncode: unclear.append(r.stdout[-400:] + r.stderr[-400:])
        short = [x.split(".")[-1] for x in dep]
        indirect = [x for x in short if x not in failed]
    return failed, indirect, unclear
if __name__ == "__main__":
    if sys.argv[1] == "base": base(); sys.exit()
    ns = {}
    exec(open(sys.argv[1]).read(), ns)
    ids = sys.argv[2:]
    for m in ns["MUTANTS"]:
        if ids and m["id"] not in ids: continue
        try: f, i, u = run(m)
        except AssertionError as e:
            print(m["id"], "EDIT FAILS", e, flush=True); continue
        print(json.dumps({"id": m["id"], "property": m["property"], "failed": f, "indirect": i, "unclear": u}, ensure_ascii=False), flush=True)
        with open("/tmp/mut/results.jsonl", "a") as o: o.write(json.dumps({**{k: m[k] for k in ("id", "property", "claim", "definition")}, "edits": m["edits"], "failed": f, "indirect": i, "unclear": u}, ensure_ascii=False) + "\n")
