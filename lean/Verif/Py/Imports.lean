/-
What Python does when the modules of the library are imported: `sys.modules`, packages, `from p import x`, and the statements of a module, which
run once, in order.

Simplifications: the modules of others (kaitaistruct and those of Python) are there, with the names listed; a class or function is an object of which
only the names within it are known; `if __name__ == "__main__"` is left out, as it does nothing on import; packages have no statements, so
importing one cannot import its submodules.
-/

set_option autoImplicit false

namespace Dmr.Py.Imports

/-- A name, as the number that its UTF-8 bytes make: `n!"len"` is 0x6c656e. (Strings are compared too slowly by Lean's kernel.) The full name of a module,
`okdmr.kaitai.etsi`, counts as one name. -/
abbrev Name := Nat
/-- A name with the attributes that follow it. -/
abbrev Path := List Name

open Lean in
/-- A name. -/
macro:max "n!" s:str : term => return Syntax.mkNumLit (toString (s.getString.toUTF8.foldl (fun a b => a * 256 + b.toNat) 0))

/-- A statement of a module. -/
inductive Top where
  /-- `import name`, of a module of others -/
  | import_ (name : Name)
  /-- `from mod import name` -/
  | from_ (mod name : Name)
  /-- `if getattr(kaitaistruct, "API_VERSION", (0, 9)) < (0, 9): raise Exception(...)` -/
  | check
  /-- `class name` or `def name`: the names that are looked up when the statement runs, each with the attributes that follow it, and the
  class and what is in it -/
  | define (name : Name) (uses : List (Name × Path)) (members : List Path)

/-- A module: its name, the package that it is in and its name there, its statements, and the names that its functions look up when they are
called, with the attributes that follow. -/
structure Module where
  name : Name
  parent : Option (Name × Name)
  body : List Top
  later : List (Name × Path)

/-- What a name of a module is bound to. -/
inductive Ref where
  /-- a module of others (`path` empty), or what it has under a name -/
  | external (mod : Name) (path : Path)
  | module (name : Name)
  /-- the class or function that a module of the library has made -/
  | made (mod name : Name)
deriving DecidableEq

abbrev Namespace := Name → Option Ref

/-- `sys.modules`, as far as the library goes; and the modules whose statements have been started, in order. -/
structure World where
  modules : Name → Option Namespace
  ran : List Name

/-- A new interpreter. -/
def World.fresh : World := ⟨fun _ => none, []⟩

inductive Err where
  | notFound | importError | name | version | diverge
deriving DecidableEq

/-- The modules of the library; those of others, with the names with attributes that they have; the names with attributes of Python itself; and whether
kaitaistruct says that its API is older than 0.9. -/
structure Env where
  program : List Module
  external : List (Name × List Path)
  builtins : List Path
  old : Bool

abbrev Res := Option Err × World

def Res.then (r : Res) (f : World → Res) : Res := match r with | (none, w) => f w | (some e, w) => (some e, w)

variable (E : Env)

def Env.find (m : Name) : Option Module := E.program.find? (·.name == m)
/-- The module `x` of the package `p`. -/
def Env.sub (p x : Name) : Option Module := E.program.find? (·.parent == some (p, x))

/-- The name `x` of module `m` is bound. -/
def World.bind (w : World) (m x : Name) (r : Ref) : World :=
  ⟨fun k => if k = m then (w.modules k).map fun ns y => if y = x then some r else ns y else w.modules k, w.ran⟩

/-- The classes and functions of a module, with the names in them. -/
def Module.made (d : Module) : List (Name × List Path) := d.body.filterMap fun s => match s with | .define x _ l => some (x, l) | _ => none

/-- The attributes `rest` of the value. -/
def resolve (w : World) (r : Ref) (rest : Path) : Bool :=
  rest == [] || match r with
  | .external m n => match E.external.lookup m with
    | some names => names.contains (n ++ rest)
    | none => false
  | .module k => match E.find k, w.modules k with
    | some d, some ns => d.made.any fun p => p.2.contains rest && ns p.1 == some (.made k p.1)
    | _, _ => false
  | .made k n => match E.find k with
    | some d => match d.made.lookup n with
      | some l => l.contains (n :: rest)
      | none => false
    | none => false

/-- Looking up a name with attributes, in a module: it is found. -/
def found (w : World) (m : Name) (p : Name × Path) : Bool :=
  match (w.modules m).bind (· p.1) with
  | some r => resolve E w r p.2
  | none => E.builtins.contains (p.1 :: p.2)

/-- Running a statement of module `m`; `ld` is how modules are loaded. -/
def exec (ld : Name → World → Res) (m : Name) : Top → World → Res
  | .import_ n, w => if (E.external.lookup n).isSome then (none, w.bind m n (.external n [])) else (some .notFound, w)
  | .from_ p x, w =>
    match E.external.lookup p with
    | some names => if names.contains [x] then (none, w.bind m x (.external p [x])) else (some .importError, w)
    | none => (ld p w).then fun w =>
      match (w.modules p).bind (· x) with
      | some r => (none, w.bind m x r)
      | none => match E.sub p x with
        | some k => (ld k.name w).then fun w => (none, w.bind m x (.module k.name))
        | none => (some .importError, w)
  | .check, w => if E.old then (some .version, w) else (none, w)
  | .define x uses _, w => if uses.all (found E w m) then (none, w.bind m x (.made m x)) else (some .name, w)

def execs (ld : Name → World → Res) (m : Name) : List Top → World → Res
  | [], w => (none, w)
  | s :: rest, w => (exec E ld m s w).then (execs ld m rest)

/-- A module is entered into `sys.modules`, with no names. -/
def World.start (w : World) (m : Name) : World := ⟨fun k => if k = m then some fun _ => none else w.modules k, w.ran ++ [m]⟩
/-- It is taken out. -/
def World.drop (w : World) (m : Name) : World := ⟨fun k => if k = m then none else w.modules k, w.ran⟩

/-- Importing a module: its package first; then its statements, if it is not there yet; then it is made an attribute of its package. If a statement
raises, it is taken out again. `n` bounds the nesting of imports. -/
def load : Nat → Name → World → Res
  | 0, _, w => (some .diverge, w)
  | n + 1, m, w =>
    if (w.modules m).isSome then (none, w) else
    match E.find m with
    | none => (some .notFound, w)
    | some d =>
      Res.then (match d.parent with | none => (none, w) | some (p, _) => load n p w) fun w =>
        match execs E (load n) m d.body (w.start m) with
        | (some e, w) => (some e, w.drop m)
        | (none, w) => (none, match d.parent with | none => w | some (p, x) => w.bind p x (.module m))

/-- `import m` for one module after the other, whatever comes of it: what comes of each, and the memory in the end. -/
def imports (n : Nat) : List Name → World → List (Option Err) × World
  | [], w => ([], w)
  | m :: rest, w =>
    let r := load E n m w
    let s := imports n rest r.2
    (r.1 :: s.1, s.2)

end Dmr.Py.Imports
