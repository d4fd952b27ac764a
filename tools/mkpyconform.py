#!/usr/bin/env python3
"""Generates lean/Verif/Py/Conform/*.lean: every class of the source files (lean/Verif/Py/Source) against the model of that class.
Proofs that need more than computation are in tools/handwritten/pyconform/<class>.txt."""
import re, os, glob, sys
ROOT = os.path.dirname(os.path.dirname(os.path.abspath(__file__)))
L = ROOT + '/lean/Verif/'
HAND = ROOT + '/tools/handwritten/pyconform/'
place = open(L + 'Py/Place.lean').read()
fileClasses = re.findall(r'"(\w+\.\w+)"', place.split('def fileClasses')[1].split(']')[0])
famtext = {fam: '\n'.join(open(f).read() for f in sorted(glob.glob(L + f'Model/{fam}/*.lean'))) for fam in ('Hytera', 'Etsi', 'Homebrew', 'Motorola')}
src = {}
for f in sorted(glob.glob(L + 'Py/Source/*.lean')):
    mod = os.path.basename(f)[:-5]
    t = open(f).read()
    fam = re.search(r'namespace Dmr\.Py\.Source\.(\w+)', t)[1]
    enums = re.findall(r'def (\S+) : EnumDef where\n  qualified := "(\S+)"\n  name := "(\w+)"\n  members := \[(.*?)\]\n', t, re.S)
    classes = re.findall(r'/-- (\S+) -/\ndef (\S+) : ClassDef where\n(.*?)(?=\n\n|\Z)', t, re.S)
    src[mod] = (fam, enums, classes)
FILES = re.findall(r'(\w+\.\w+)\.file', open(L + 'Py/Source.lean').read().split('def files')[1])
owner, body = {}, {}
for mod, (fam, enums, classes) in src.items():
    for loc, c, b in classes: owner[f'{fam}.{c}'] = mod; body[f'{fam}.{c}'] = b
def children(q): return [x for x in dict.fromkeys(re.findall(r'\.cls "([\w.]+)"', body[q].split('properties :=')[0])) if x in owner]
depth = {}
def D(q):
    if q not in depth: depth[q] = 2 + max([1] + [D(c) for c in children(q)])
    return depth[q]
def order(mod):
    """children first"""
    fam, enums, classes = src[mod]
    out = []
    def visit(q):
        if q in out: return
        for c in children(q):
            if owner[c] == mod: visit(c)
        out.append(q)
    for loc, c, b in classes: visit(f'{fam}.{c}')
    return out
only = sys.argv[1:]
for mod, (fam, enums, classes) in src.items():
    loc = {f'{fam}.{c}': l for l, c, b in classes}
    allbody = '\n'.join(b for _, _, b in classes)
    imports, out, extra = set(), [], set()
    top = re.sub('Motorola$', '', mod) if fam == 'Motorola' else mod
    i = FILES.index(f'{fam}.{top}')
    out.append(f'theorem {top}.file : files[{i}]? = some Source.{fam}.{top}.file := rfl\n')
    for name, q, py, members in enums:
        if f'"{q}"' not in allbody: continue
        tag = name.replace('.', '_'); E = f'Dmr.{fam}.{name}'
        j = [e[0] for e in enums].index(name)
        out.append(f'theorem enum_{tag} : library.enums.find? (fun e => e.qualified == "{q}") = some Source.{q} := enum_at {i} _ {top}.file {j} Source.{q} rfl\n')
        if f'resolve_enum") [.enum "{q}"' in allbody:
            out.append(f'@[py] theorem resolve_{tag} (v : Nat) : resolve library "{q}" (.pv (.int (v : Int))) =\n    pure (.pv (EnumVal.toPy "{py}" (resolveEnum {E} v))) := run_resolve Source.{q} enum_{tag} (by decide) v\n')
        vals = dict(re.findall(r'\("(\w+)", (\d+)\)', members))
        for mem in sorted(set(re.findall(r'\.attr \(\.enum "%s"\) "(\w+)"' % re.escape(q), allbody))):
            out.append(f'@[py] theorem member_{tag}_{mem} : member library "{q}" "{mem}" = pure (.pv (.enum "{py}" {vals[mem]})) := member_of enum_{tag} rfl\n')
            out.append(f'@[py] theorem same_{tag}_{mem} (on : EnumVal {E}) :\n    same (.pv (EnumVal.toPy "{py}" on)) (.pv (.enum "{py}" {vals[mem]})) = decide (on = .known .{mem}) :=\n  same_known _ _ {E}.{mem}\n')
    for q in order(mod):
        t = q.split('.', 1)[1]; M = 'Dmr.' + q; tag = t.replace('.', '_')
        for c in children(q):
            if owner[c] != mod: imports.add(owner[c])
        d = D(q)
        j = [c for _, c, _ in classes].index(t)
        out.append(f'theorem {tag}_class : library.class "{q}" = some Source.{q} := class_at {i} _ {top}.file {j} Source.{q} rfl\n')
        if 'properties := []' not in body[q]:
            out.append(f'@[py] theorem {tag}_property (x : String) : library.property "{q}" x = Source.{q}.properties.lookup x :=\n  property_of _ _ _ _ {tag}_class\n')
        short = f'@[py] theorem {tag}_short (n k : Nat) : (calls library (n + {d})).construct "{q}" [.io k] =\n    (calls library (n + {d})).construct "{q}" [.io k, .pv .none, .pv .none] := construct_short _ _ _ _ {tag}_class rfl _\n'
        if q in fileClasses:
            pl = f'@[py] theorem {tag}_place (io parent root : Val) (b : Nat) (x : {M}) :\n    place io parent root b x.toPy = (.obj b, placeObj io (.pv .none) (.obj b) b x.toPy) :=\n  place_file _ _ _ _ _ _ (by decide)\n'
        else:
            pl = f'@[py] theorem {tag}_place (io parent root : Val) (b : Nat) (x : {M}) :\n    place io parent root b x.toPy = (.obj b, placeObj io parent root b x.toPy) :=\n  place_part _ _ _ _ _ _ (by decide)\n'
        props = f', Source.{q}' if 'properties := []' not in body[q] else ''
        hand = HAND + q + '.txt'
        unfold = [f'{M}.read', f'{M}.toPy']
        for u in re.findall(r'^def (%s\.(?:read|compute)\w+) ' % re.escape(t), famtext[fam], re.M):
            unfold.append(f'Dmr.{fam}.{u}')
        for u in re.findall(r'^inductive (%s\.\w+Union) ' % re.escape(t), famtext[fam], re.M): unfold.append(f'Dmr.{fam}.{u}.toPy')
        lines = [f'/-- {loc[q]} against `{M}`. -/',
            f'@[py] theorem {tag}_builds (n : Nat) (H : List Obj) (S : List Stream) (k : Nat) (hk : k < S.length) (s : Stream)',
            f'    (parent root : Val) : ((calls library (n + {d})).construct "{q}" [.io k, parent, root]).run ⟨H, S.set k s⟩ =',
            f'      after {M}.read s (fun e s\' => .raise e ⟨H, S.set k s\'⟩)',
            f'        (built {M}.toPy k parent root H S) := by',
            f'  rw [construct_eq library _ "{q}" _ _ {tag}_class rfl rfl]',
            f'  py_run [onStream_set _ _ _ _ hk, hk, {", ".join(unfold)}{props}]\n']
        if os.path.exists(hand):
            h = open(hand).read()
            for i2 in re.findall(r'^import (\S+)\n', h, re.M): extra.add(i2)
            out.append(re.sub(r'^import \S+\n', '', h, flags=re.M))
        else: out.append('\n'.join(lines))
        if q in fileClasses: out.append(short)
        out.append(pl)
    imps = ['Verif.Py.Base'] + ['Verif.Py.Conform.' + i for i in sorted(imports)] + sorted(extra)
    ns = f'Dmr.Py.Conform{fam}'
    txt = ''.join(f'import {i}\n' for i in imps) + f'/-\nGenerated by tools/mkpyconform.py: the source file of `{fam}.{mod}` against the model of its classes.\n-/\n\nset_option autoImplicit false\nset_option linter.unusedSimpArgs false\nset_option maxHeartbeats 1000000\n\nnamespace {ns}\n\n' + '\n'.join(out) + f'\nend {ns}\n'
    os.makedirs(L + 'Py/Conform', exist_ok=True)
    p = L + f'Py/Conform/{mod}.lean'
    if not os.path.exists(p) or open(p).read() != txt: open(p, 'w').write(txt)
print({m: (len(v[2])) for m, v in src.items()})
