#!/usr/bin/env python3
"""Writes lean/Verif/Py/TimeLibrary.lean: what the classes and properties of the library take, found by iterating the analysis of Verif/Py/TimeCalls.
The table needs no trust: the file checks it (`library_covered`). Run in /verif/lean after `lake build Verif.Py.TimeCalls`."""
import subprocess, json
SRC = r'''
import Verif.Py.TimeCalls
open Dmr Dmr.Py Dmr.Py.Time
def props0 : List String := (library.classes.flatMap fun d => d.properties.map (·.1)).eraseDups
structure Tab where
  cls : List (String × Cost)
  prop : List (String × Cost)
def known (t : Tab) : Known := ⟨fun n => t.cls.lookup n, fun x => match t.prop.lookup x with | some c => some c | none => if x ∈ props0 then none else some nothing⟩
def pass (t : Tab) : Tab :=
  let K := known t
  let cls := library.classes.filterMap fun d => match d.methods.lookup "_read" with
    | some f => (scosts K f.body).c0.map fun c => (d.name, c)
    | none => none
  let prop := props0.filterMap fun x =>
    let cs := library.classes.filterMap fun d => (d.properties.lookup x).map fun f => (scosts K f.body).c0
    let r := cs.foldl (fun acc c => match acc, c with | some a, some b => some (a.alt b) | _, _ => none) (some nothing)
    r.map fun c => (x, ⟨c.a, c.b, 0⟩)
  ⟨cls, prop⟩
def iter : Nat → Tab → Tab | 0, t => t | n+1, t => iter n (pass t)
def fin := iter 12 ⟨[], []⟩
#eval IO.println ("\n".intercalate (fin.cls.map fun c => s!"C {c.1} {c.2.a} {c.2.b} {c.2.k}"))
#eval IO.println ("\n".intercalate (fin.prop.map fun c => s!"P {c.1} {c.2.a} {c.2.b} {c.2.k}"))
#eval IO.println ("\n".intercalate ((props0.filter fun x => (fin.prop.lookup x).isNone).map fun x => s!"N {x}"))
'''
open("/tmp/mktime.lean", "w").write(SRC)
out = subprocess.run(["lake", "env", "lean", "/tmp/mktime.lean"], cwd="/verif/lean", capture_output=True, text=True).stdout
rows = [l.split() for l in out.splitlines() if l[:2] in ("C ", "P ", "N ")]
cls = [r for r in rows if r[0] == "C"]
prop = [r for r in rows if r[0] == "P"]
none = [r for r in rows if r[0] == "N"]
print(len(cls), len(prop), none)
o = ['''import Verif.Py.TimeCalls
/-
What the classes and the properties of the library take. The numbers are found by tools/mktime.py, and checked here.
-/

set_option autoImplicit false

namespace Dmr.Py.Time

/-- What `_read` of each class takes. -/
def readCosts : List (String × Cost) :=
  [''' + ",\n   ".join('("%s", ⟨%s, %s, %s⟩)' % tuple(r[1:]) for r in cls) + ''']

/-- What the properties of each name take. That of the property `data` of DmrDataHeader, which opens a stream, is not found in this way. -/
def propertyCosts : List (String × Option Cost) :=
  [''' + ",\n   ".join(['("%s", some ⟨%s, %s, %s⟩)' % tuple(r[1:]) for r in prop] + ['("%s", none)' % r[1] for r in none]) + ''']

/-- What is known of the library. -/
def known : Known := ⟨fun n => readCosts.lookup n, fun x => match propertyCosts.lookup x with
  | some c => c
  | none => some nothing⟩

set_option maxRecDepth 20000 in
theorem library_covered : ∀ d ∈ library.classes, ClassDef.covered known d = true := by
  have : library.classes.all (ClassDef.covered known) = true := by decide +kernel
  exact List.all_eq_true.1 this

theorem library_bounds (n : Nat) : Bounds known (calls library n) ∧ Reads known (calls library n) := bounds_calls library_covered n

end Dmr.Py.Time
''']
open("/verif/lean/Verif/Py/TimeLibrary.lean", "w").write("\n".join(o))
