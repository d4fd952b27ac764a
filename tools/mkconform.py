#!/usr/bin/env python3
"""Generates lean/Verif/Ksy/Conform/*.lean: every type of the schemas (lean/Verif/Ksy/Schema.lean) against the model of the
Python class of that name. Proofs that need more than computation are in tools/handwritten/conform_<name>.lean."""
import re, os, glob, sys
ROOT = os.path.dirname(os.path.dirname(os.path.abspath(__file__)))
L = ROOT + '/lean/Verif/'
HAND = ROOT + '/tools/handwritten/conform/'
schema = open(L + 'Ksy/Schema.lean').read()
models = {f: open(f).read() for f in sorted(glob.glob(L + 'Model/*/*.lean'))}
alltext = '\n'.join(models.values())

# sections of the schema: (family, top name, text)
secs = []
for m in re.finditer(r'namespace Dmr\.Ksy\.(\w+)\n(.*?)\nend Dmr\.Ksy\.\1', schema, re.S):
    fam, body = m[1], m[2]
    types = re.findall(r'/-- (okdmr/\S+?) type[^\n]*\ndef (\S+) : TypeDef where\n(.*?)(?=\n\n|\Z)', body, re.S)
    enums = re.findall(r'def (\S+) : EnumDef where\n  name := "(\w+)"\n  members := \[(.*?)\]\n', body + '\n', re.S)
    if not types: continue
    secs.append((fam, types, enums))

height = {}
def refs(fam, text):
    out = []
    for m in re.finditer(r'\.user ([\w.]+)|, ([A-Z][\w.]*)\)|\(some ([A-Z][\w.]*)\)', text):
        n = m[1] or m[2] or m[3]
        if (fam, n) in height: out.append(n)
    return out

def lean_member(path, member):
    """name of the constructor in the model"""
    return member

files = []
prev = 'Verif.Ksy.Conform.Base'
deps = {}
for fam, types, enums in secs:
    top = types[-1][1].split('.')[0]
    tops = [t for _, t, _ in types if '.' not in t]
    mod = (tops[0] if tops else top)
    modname = mod + ('Motorola' if fam == 'Motorola' and mod == 'TextMessageProtocol' else '')
    out = []
    used = set()
    imports = set()
    for name, py, members in enums:
        if not re.search(r'Enum \.?\w+ %s\b' % re.escape(name), '') and name not in str(types): continue
        E = 'Dmr.%s.%s' % (fam, name)
        tag = name.replace('.', '_')
        out.append(f'@[ksy] theorem resolve_{tag} (v : Nat) : {fam}.{name}.resolve v = EnumVal.toPy "{py}" (resolveEnum {E} v) :=\n  resolve_eq _ (by decide) v\n')
        body = '\n'.join(t[2] for t in types)
        for nb in sorted(set(re.findall(r'\.bitsEnum (\d+) %s\b' % re.escape(name), body))):
            out.append(f'@[ksy ↓] theorem read_{tag}_b{nb} (ev sub) : readTy ev sub (.bitsEnum {nb} {fam}.{name}) =\n    asEnum {E} (readBitsIntBe {nb}) >>= fun e => pure (some (EnumVal.toPy "{py}" e)) :=\n  enum_bits resolve_{tag} ev sub {nb}\n')
        for pr in sorted(set(re.findall(r'\.primEnum \.(\w+) %s\b' % re.escape(name), body))):
            rd = 'read' + pr[0].upper() + pr[1:]
            out.append(f'@[ksy ↓] theorem read_{tag}_{pr} (ev sub) : readTy ev sub (.primEnum .{pr} {fam}.{name}) =\n    asEnum {E} {rd} >>= fun e => pure (some (EnumVal.toPy "{py}" e)) :=\n  enum_prim resolve_{tag} .{pr} {rd} rfl ev sub\n')
        vals = dict((b, a) for a, b in re.findall(r'\((\d+), "(\w+)"\)', members))
        for mem in sorted(set(re.findall(r'\.enum %s "(\w+)"' % re.escape(name), body))):
            out.append(f'@[ksy] theorem member_{tag}_{mem} : {fam}.{name}.member "{mem}" = pure (.enum "{py}" {vals[mem]}) := rfl\n')
            out.append(f'@[ksy] theorem same_{tag}_{mem} (on : EnumVal {E}) :\n    same (EnumVal.toPy "{py}" on) (.enum "{py}" {vals[mem]}) = decide (on = .known .{mem}) :=\n  same_known _ _ {E}.{mem}\n')
    for loc, t, body in types:
        hs = []
        for r in refs(fam, body):
            hs.append(height[(fam, r)][0])
            if height[(fam, r)][1] != modname: imports.add(height[(fam, r)][1])
        k = 1 + max(hs, default=0)
        height[(fam, t)] = (k, modname)
        M = f'Dmr.{fam}.{t}'
        tag = t.replace('.', '_')
        hand = HAND + f'{fam}_{tag}.txt'
        if os.path.exists(hand):
            out.append(open(hand).read()); continue
        mm = re.search(r'namespace Dmr\.%s\n(?:(?!\nend Dmr).)*?\ndef %s\.read( \([^:]*:[^)]*\))*? ?: Rd' % (fam, re.escape(t)), alltext, re.S)
        if not mm or mm[1]:
            out.append(f'-- MISSING {M} {"params" if mm else "no read"}\n'); continue
        extra = ''
        dsc = ''
        sw = re.search(r'id := "(\w+)", ty := \.switch \(\.field "(\w+)"\)', body)
        pre = [f'{M}.read', f'{M}.toPy']
        pf = f'  rw [parse_succ]\n  ksy_simp [{", ".join(pre)}]\n'
        if sw:
            field = ''.join(w.capitalize() for w in sw[1].split('_'))
            em = re.search(r'id := "%s", ty := \.\w+Enum \.?\w+ (\S+?)[ ,}]' % sw[2], body)
            if em:
                pf += f'  ksy_switch {M.rsplit(".",0)[0]}.read{field} {M}.{field}Union.toPy Dmr.{fam}.{em[1]}\n'
        out.append(f'/-- {loc} against `{M}`. -/\n@[ksy ↓] theorem {tag}_conforms (n : Nat) (sc : Scope) :\n    parse (n + {k}) sc {fam}.{t} = (fun x => view ({M}.toPy x)) <$> {M}.read := by\n{pf}')
    imps = ['Verif.Ksy.Conform.Base'] + ['Verif.Ksy.Conform.' + i for i in sorted(imports)]
    txt = ''.join(f'import {i}\n' for i in imps) + f'/-\nGenerated by tools/mkconform.py: the schema of `{mod}` against the model of the Python classes.\n-/\n\nset_option linter.unusedSimpArgs false\nset_option maxHeartbeats 1000000\n\nnamespace Dmr.Ksy.Conform{fam}\n\n' .replace(f'Conform{fam}', f'{fam}') + '\n'.join(out) + f'\nend Dmr.Ksy.{fam}\n'
    open(L + f'Ksy/Conform/{modname}.lean', 'w').write(txt)
    files.append(modname)
print(' '.join(files))
