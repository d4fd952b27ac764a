#!/usr/bin/env python3
"""Generates lean/Verif/Py/Table.lean: all classes of the library in the order of the source files, with their models."""
import re, os, glob
ROOT = os.path.dirname(os.path.dirname(os.path.abspath(__file__)))
L = ROOT + '/lean/Verif/'
FILES = re.findall(r'(\w+\.\w+)\.file', open(L + 'Py/Source.lean').read().split('def files')[1])
rows, proofs = [], []
imports = []
for F in FILES:
    fam, top = F.split('.')
    mod = top + ('Motorola' if F == 'Motorola.TextMessageProtocol' else '')
    imports.append(f'Verif.Py.Conform.{mod}')
    src = open(L + f'Py/Source/{mod}.lean').read()
    conf = open(L + f'Py/Conform/{mod}.lean').read()
    classes = [c.strip() for c in src.split('classes := [')[1].split(']')[0].split(',')]
    r, p = [], []
    for c in classes:
        q = f'{fam}.{c}'; tag = c.replace('.', '_'); ns = f'Conform{fam}'
        if f'theorem {tag}_builds_at' in conf:
            r.append(f'("{q}", none)')
            d = int(re.search(r'theorem %s_builds_at .*?calls library \(n \+ (\d+)\)' % tag, conf, re.S)[1])
            p.append((c, f"""theorem {tag}_alone : Unusable "{q}" := by
  refine unusable {d - 1} (by decide) {tag}_class rfl fun m H S k hk s => ?_
  rw [construct_eq library _ "{q}" _ _ {tag}_class rfl rfl]
  py_run [onStream_set _ _ _ _ hk, hk, property_of _ _ _ _ {tag}_class, Source.{q}, Dmr.Hytera.RadioIp.read]
  repeat (first | (refine after_ends onlyEof_readU1 _ fun _ _ => ?_) | (refine after_ends onlyEof_readU2be _ fun _ _ => ?_))
  exact ⟨_, _, rfl, .inl rfl⟩
""", f'{tag}_alone'))
        else:
            r.append(f'("{q}", some ⟨{q}, {q}.read, {q}.toPy⟩)')
            m = re.search(r'theorem %s_builds (.*?):= by' % tag, conf, re.S)[1]
            d = int(re.search(r'calls library \(n \+ (\d+)\)', m)[1])
            args = ' (.pv .none) (.pv .none)' if 'parent root : Val' in m else ' (h (by simp [fromStart]))' if '(hs : s.pos = 0)' in m else ''
            p.append((c, f"""theorem {tag}_constructs : Constructs "{q}" ⟨{q}, {q}.read, {q}.toPy⟩ :=
  constructs _ {d - 1} (by decide) {tag}_class rfl (fun _ => ⟨_, _, rfl⟩) {q}.toPy_regular
    fun m H S k hk s {'h' if 'hs : s.pos' in m else '_'} => {tag}_builds m H S k hk s{args}
""", f'{tag}_constructs'))
    var = fam.lower() + top
    rows.append((var, F, r))
    proofs.append((fam, p, var))
out = ''.join(f'import {i}\n' for i in imports) + """import Verif.Py.Agree
import Verif.Py.RegularLibrary
/-
Generated by tools/mkpytable.py: all classes of the library, in the order of the source files, with their models.
-/

set_option autoImplicit false
set_option maxHeartbeats 1000000
set_option linter.unusedTactic false
set_option linter.unreachableTactic false

namespace Dmr.Py

/-- What is claimed of a class: its model, if it has one that does not depend on other objects. -/
def Claim (row : String × Option Reader) : Prop :=
  match row.2 with
  | some R => Constructs row.1 R
  | none => Unusable row.1

"""
for var, F, r in rows:
    out += f'/-- The classes of `{F}`. -/\ndef {var} : List (String × Option Reader) :=\n  [' + ',\n   '.join(r) + ']\n\n'
out += '/-- The classes of the library. -/\ndef table : List (String × Option Reader) :=\n  [' + ', '.join(v for v, _, _ in rows) + '].flatten\n\n'
out += 'set_option maxRecDepth 20000 in\n/-- These are all classes. -/\ntheorem table_complete : table.map Prod.fst = library.classes.map ClassDef.name := rfl\n\n'
for fam, p, var in proofs:
    out += f'namespace Conform{fam}\n\n' + '\n'.join(x for _, x, _ in p) + f'\nend Conform{fam}\n\n'
    out += f'theorem {var}_claims : Each Claim {var} :=\n  ⟨' + ', '.join(f'Conform{fam}.{n}' for _, _, n in p) + ', trivial⟩\n\n'
out += 'theorem table_claims : ∀ row ∈ table, Claim row := by\n  intro row h\n  obtain ⟨l, hl, h⟩ := List.mem_flatten.1 h\n  have : Each (fun l => Each Claim l) [' + ', '.join(v for v, _, _ in rows) + '] :=\n    ⟨' + ', '.join(f'{v}_claims' for v, _, _ in rows) + ', trivial⟩\n  exact (this.mem l hl).mem row h\n\nend Dmr.Py\n'
open(L + 'Py/Table.lean', 'w').write(out)
print(sum(len(r) for _, _, r in rows))
alone = [x.endswith('none)') for _, _, r in rows for x in r]
names = [re.match(r'\("([\w.]+)"', x)[1] for _, _, r in rows for x in r]
am = open(L + 'AmountAll.lean').read().split('def objectDecoders')[1].split('theorem')[0]
ex = open(L + 'Props/Exceptions.lean').read().split('def exceptionTable')[1].split('theorem')[0]
o = '''import Verif.Py.Table
import Verif.AmountAll
import Verif.Props.Exceptions
import Verif.LocalList
import Verif.ShiftList
import Verif.LosslessList
/-
Generated by tools/mkpytable.py: the models of the classes are the decoders of the other properties.
-/

set_option autoImplicit false
set_option maxRecDepth 20000

namespace Dmr.Py

theorem objectDecoders_in_table : ∀ d ∈ objectDecoders, (d.name, some ⟨d.Obj, d.read, d.view⟩) ∈ table := by
  unfold objectDecoders
'''
for n in re.findall(r'⟨"([\w.]+)"', am): o += f'  refine List.forall_mem_cons.2 ⟨List.mem_of_getElem? (i := {names.index(n)}) rfl, ?_⟩\n'
o += '''  exact List.forall_mem_nil _

theorem exceptionTable_in_table : ∀ p ∈ exceptionTable, ∃ v, (p.1.name, some ⟨p.1.Obj, p.1.read, v⟩) ∈ table := by
  unfold exceptionTable
'''
for n in re.findall(r'⟨"([\w.]+)"', ex): o += f'  refine List.forall_mem_cons.2 ⟨⟨_, List.mem_of_getElem? (i := {names.index(n)}) rfl⟩, ?_⟩\n'
o += '  exact List.forall_mem_nil _\n\n'
for var, f, sep in (('sequentialDecoders', 'LocalList', 'theorem'), ('relocatableDecoders', 'ShiftList', 'theorem'), ('losslessDecoders', 'LosslessList', 'theorem')):
    body = open(L + f + '.lean').read().split('def ' + var)[1].split(sep)[0]
    some_alone = any(alone[names.index(n)] for n in re.findall(r'⟨"([\w.]+)"', body))
    goal = '(∃ v, (d.name, some ⟨d.Obj, d.read, v⟩) ∈ table) ∨ (d.name, none) ∈ table' if some_alone else '∃ v, (d.name, some ⟨d.Obj, d.read, v⟩) ∈ table'
    o += f'theorem {var}_in_table : ∀ d ∈ {var}, {goal} := by\n  unfold {var}\n'
    for n in re.findall(r'⟨"([\w.]+)"', body):
        i = names.index(n)
        o += f'  refine List.forall_mem_cons.2 ⟨{".inr <|" if alone[i] else (".inl <| " if some_alone else "") + ".intro _"} (List.mem_of_getElem? (i := {i}) rfl), ?_⟩\n'
    o += '  exact List.forall_mem_nil _\n\n'
o += 'end Dmr.Py\n'
open(L + 'Py/Models.lean', 'w').write(o)
o = '''import Verif.Py.Table
import Verif.Py.Shown
import Verif.Py.FewLibrary
/-
Generated by tools/mkpytable.py: for every class with a model, the model object can be told from the attributes, all objects have the
attributes that constructors assign, and there are few.
-/

set_option autoImplicit false

namespace Dmr.Py

open Graph (regular)

/-- What is said of a row of the table. -/
def Told (row : String × Option Reader) : Prop :=
  match row.2 with
  | none => True
  | some R => (∀ x y, R.toPy x = R.toPy y → x = y) ∧ (∀ x, regular (R.toPy x)) ∧ ∀ x, Few.Few perItem 9 (R.toPy x)

'''
for var, F, r in rows:
    o += f'theorem {var}_told : Each Told {var} :=\n  ⟨' + ', '.join('trivial' if x.endswith('none)') else (lambda c: f'⟨fun _ _ => {c}.toPy_inj, {c}.toPy_regular, fun x => Few.more ({c}.toPy_few x) (by decide)⟩')(re.search(r'some ⟨([\w.]+),', x)[1]) for x in r) + ', trivial⟩\n\n'
o += 'theorem table_told : ∀ row ∈ table, Told row := by\n  intro row h\n  obtain ⟨l, hl, h⟩ := List.mem_flatten.1 h\n  have : Each (fun l => Each Told l) [' + ', '.join(v for v, _, _ in rows) + '] :=\n    ⟨' + ', '.join(f'{v}_told' for v, _, _ in rows) + ', trivial⟩\n  exact (this.mem l hl).mem row h\n\nend Dmr.Py\n'
open(L + 'Py/Told.lean', 'w').write(o)
