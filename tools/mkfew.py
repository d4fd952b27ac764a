#!/usr/bin/env python3
"""Generates lean/Verif/Py/FewLibrary.lean from lean/Verif/Model/Tools/PyView.lean: how many objects there are in every decoded object."""
import os, re
ROOT = os.path.dirname(os.path.dirname(os.path.abspath(__file__))) + '/lean/Verif/'
t = open(ROOT + 'Model/Tools/PyView.lean').read()
out = '''import Verif.Py.Few
import Verif.Model.Tools.PyView
/-
Generated by tools/mkfew.py: how many objects there are in every decoded object.
-/

open Dmr.Py.Few

namespace Dmr

/-- As many objects, at most, come with an item of a list. -/
def Py.perItem : Nat := @D@

'''
size, items, ns_ = {}, set(), ''
def full(c): return ns_ + '.' + c if ns_ + '.' + c in size else next(n for n in ('Dmr.Hytera', ) if n + '.' + c in size) + '.' + c
def value(e, f):
    """(objects, proof)"""
    if re.match(r'\.int ', e): return 0, 'int _'
    for k in ('bytes', 'str', 'bool'):
        if e == f'.{k} {f}': return 0, f'{k} _'
    if e.startswith('EnumVal.toPy'): return 0, 'enum _ _'
    m = re.fullmatch(rf'([A-Z][\w.]*)\.toPy {re.escape(f)}', e)
    if m: return size[full(m[1])], f'{m[1]}.toPy_few _'
    m = re.fullmatch(rf'\.list \(List\.map \(fun y => (.*)\) {re.escape(f)}\)', e)
    if m:
        c, v = value(m[1], 'y')
        items.add(c)
        return 0, f'list (c := {c}) (by decide) (fun _ => {v}) _'
    raise Exception(e)
for ns, body in re.findall(r'^namespace (Dmr\.\w+)\n(.*?)^end \1', t, re.S | re.M):
    ns_ = ns
    out += f'namespace {ns.split(".")[1]}\n\n'
    for d in re.split(r'\n(?=/--)', body):
        m = re.search(r'^def ([\w.]+)\.toPy \(_?x : ([\w.]+)\) : PyVal :=\n', d, re.M)
        u = re.search(r'^def ([\w.]+Union)\.toPy : ', d, re.M)
        if u:
            n = u[1]
            alts = re.findall(r'^  \| \.(\w+) x => ([\w.]+)\.toPy x$', d, re.M)
            c = max(size[full(a)] for _, a in alts)
            size[ns + '.' + n] = c
            out += f'theorem {n}.toPy_few (x : {n}) : Few Py.perItem {c} x.toPy := by\n  cases x with\n'
            for k, a in alts: out += f'  | {k} x => exact more (x.toPy_few) (by decide)\n'
            out += '\n'
        elif m:
            n = m[1]
            lines = re.findall(r'PyVal\.(attr|optAttr) "(\w+)" \((.*)\)[,\]]*$', d, re.M)
            proof, total = [], 0
            for k, a, e in lines:
                if k == 'attr':
                    m2 = re.search(r'x\.(\w+)\)*$', e)
                    c, v = value(e, 'x.' + m2[1])
                    proof.append((c, f'attr ({v})'))
                else:
                    m2 = re.match(r'x\.(\w+)\.map fun (?:y|_) => (.*)$', e)
                    if m2:
                        c, v = value(m2[2], 'y')
                        proof.append((c, f'opt fun _ => {v}'))
                    elif e.startswith('if '): proof.append((0, 'opt_plain fun v h => by split at h <;> cases h; exact int _'))
                    else: proof.append((0, 'opt_plain fun v h => ' + re.search(r'bind ([\w.]+)', e)[1] + '_few h'))
            total = 1 + sum(c for c, _ in proof)
            size[ns + '.' + n] = total
            if 'fifthLetter' in d:
                out += f'''theorem {n}.CommandDataUnion.fifthLetter_few {{o : Option {n}.CommandDataUnion}} {{v : PyVal}} (h : o.bind {n}.CommandDataUnion.fifthLetter = some v) : Few Py.perItem 0 v := by
  obtain ⟨y, rfl, h1⟩ := Option.bind_eq_some_iff.1 h
  unfold {n}.CommandDataUnion.fifthLetter at h1
  split at h1 <;> cases h1 <;> exact str _

'''
            out += f'theorem {n}.toPy_few (x : {n}) : Few Py.perItem {total} x.toPy :=\n  more (object (\n'
            for c, pr in proof: out += f'    cons ({pr}) <|\n'
            out += f'    nil)) (by decide)\n\n'
    out += f'end {ns.split(".")[1]}\n\n'
out += 'end Dmr\n'
print(len(size), 'list items:', items, 'max', max(size.values()), [k for k in size if size[k] == max(size.values())])
out = out.replace('@D@', str(max(items)))
open(ROOT + 'Py/FewLibrary.lean', 'w').write(out)
