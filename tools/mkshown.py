#!/usr/bin/env python3
"""Generates lean/Verif/Py/Shown.lean from lean/Verif/Model/Tools/PyView.lean: every object of a model can be told from its attributes."""
import os, re
ROOT = os.path.dirname(os.path.dirname(os.path.abspath(__file__))) + '/lean/Verif/'
t = open(ROOT + 'Model/Tools/PyView.lean').read()
out = '''import Verif.Py.Injective
import Verif.Enums
import Verif.Model.Tools.PyView
/-
Generated by tools/mkshown.py: every object of a model can be told from its attributes.
-/

open Dmr.Py.Shown

'''
count = 0
def value(e, f):
    """(proof from h, whether it is about the field)"""
    C = r'([A-Z][\w.]*)\.toPy'
    if e == f'.int (Int.ofNat {f})': return 'nat'
    if e == f'.int {f}': return 'int'
    for k in ('bytes', 'str', 'bool'):
        if e == f'.{k} {f}': return k
    if re.fullmatch(rf'EnumVal\.toPy "\w+" {re.escape(f)}', e): return 'enum'
    m = re.fullmatch(rf'{C} {re.escape(f)}', e)
    if m: return m[1] + '.toPy_inj'
    m = re.fullmatch(rf'\.list \(List\.map \(fun y => (.*)\) {re.escape(f)}\)', e)
    if m:
        v = value(m[1], 'y')
        return v and f'list {v}'
for ns, body in re.findall(r'^namespace (Dmr\.\w+)\n(.*?)^end \1', t, re.S | re.M):
    out += f'namespace {ns}\n\n'
    for d in re.split(r'\n(?=/--)', body):
        m = re.search(r'^def ([\w.]+)\.toPy \(_?x : ([\w.]+)\) : PyVal :=\n  \.object "([\w.]+)"\n?\s*\[?(.*?)\]?\s*$', d, re.S | re.M) if 'def ' in d else None
        u = re.search(r'^def ([\w.]+Union)\.toPy : ', d, re.M)
        if u:
            alts = re.findall(r'^  \| \.(\w+) x => ([\w.]+)\.toPy x$', d, re.M)
            n = u[1]
            out += f'theorem {n}.toPy_inj {{x y : {n}}} (h : x.toPy = y.toPy) : x = y := by\n'
            out += '  cases x <;> cases y <;> first\n    | exact absurd (object_class h) (by decide)\n'
            for c in dict.fromkeys(c for _, c in alts): out += f'    | exact congrArg _ ({c}.toPy_inj h)\n'
            out += '\n'; count += 1
        elif m:
            n = m[1]
            src = d[m.start():]
            lines = re.findall(r'PyVal\.(attr|optAttr) "(\w+)" \((.*)\)[,\]]*$', src, re.M)
            lines = [(k, a, e) for k, a, e in lines]
            out += f'theorem {n}.toPy_inj {{x y : {n}}} (h : x.toPy = y.toPy) : x = y := by\n'
            eqs = []
            if lines: out += '  have h := object_attrs h\n'
            for i, (k, a, e) in enumerate(lines):
                out += f'  obtain ⟨h{i}, h⟩ := ' + ('attr h\n' if k == 'attr' else 'opt h (by names) (by names)\n')
                f = None
                if k == 'attr':
                    m2 = re.search(r'x\.(\w+)\)*$', e)
                    v = m2 and value(e, 'x.' + m2[1])
                else:
                    m2 = re.match(r'x\.(\w+)\.map fun y => (.*)$', e)
                    v = m2 and value(m2[2], 'y')
                    v = v and f'option {"(" + v + ")" if " " in v else v}'
                if v:
                    out += f'  replace h{i} : x.{m2[1]} = y.{m2[1]} := {v} h{i}\n'
                    eqs.append(f'h{i}')
                else: print('no field:', n, a, e)
            if eqs: out += '  cases x; cases y\n  dsimp only at ' + ' '.join(eqs) + '\n  subst ' + ' '.join(eqs) + '\n  rfl\n\n'
            else: out += '  cases x; cases y; rfl\n\n'
            count += 1
    out += f'end {ns}\n\n'
open(ROOT + 'Py/Shown.lean', 'w').write(out)
print(count)
