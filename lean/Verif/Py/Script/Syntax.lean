import Verif.Runtime
import Verif.Model.Tools.PyVal
/-
The part of Python in which okdmr/kaitai/motorola/motorola_utils.py and okdmr/kaitai/tools/*.py are written: its abstract syntax.
`Verif/Py/Script/Source` contains these files in this form.
-/

set_option autoImplicit false

namespace Dmr.Script

/-- Binary operators. -/
inductive BinOp where
  | add | sub | div | mod | pow | shl | band

/-- Comparisons. -/
inductive CmpOp where
  | eq | ne | lt | le | gt | ge | is_ | isNot | in_ | notIn

/-- Expressions. Names of functions and classes are given in full: those of these files by file and name (`func`, `script`), those
of the decoders as in Verif/Py/Source (`cls`, `enum`). All other names that are not local variables are builtins, or are imported
from the standard library or from kaitaistruct (`global`). -/
inductive Expr where
  | none
  | bool (b : Bool)
  | int (n : Int)
  | str (s : String)
  /-- a local variable or a parameter -/
  | name (id : String)
  | func (name : String)
  | script (name : String)
  | cls (name : String)
  | enum (name : String)
  | global (id : String)
  | attr (e : Expr) (name : String)
  | call (f : Expr) (args : List Expr) (kwargs : List (String × Expr))
  | bin (op : BinOp) (a b : Expr)
  | neg (e : Expr)
  | cmp (op : CmpOp) (a b : Expr)
  | not (e : Expr)
  | and (a b : Expr)
  | or (a b : Expr)
  /-- `a if c else b` -/
  | ifExp (c a b : Expr)
  | list (items : List Expr)
  | tuple (items : List Expr)
  /-- `e[i]` -/
  | index (e i : Expr)
  /-- `e[lo:hi:step]`; what is not given is `none` -/
  | slice (e lo hi step : Expr)
  /-- an f-string -/
  | format (parts : List Expr)
  /-- `{key: value for (x, y) in items if c}`; without a condition, `c` is `True` -/
  | dictComp (key value : Expr) (x y : String) (items c : Expr)
  /-- `lambda x: body` -/
  | lam (x : String) (body : Expr)

/-- Statements. -/
inductive Stmt where
  /-- `target = e`, where the target is a name, a slice, or a tuple of these -/
  | assign (target e : Expr)
  | expr (e : Expr)
  | if_ (c : Expr) (t e : List Stmt)
  | for_ (x : String) (it : Expr) (body : List Stmt)
  | return_ (e : Expr)

/-- `def f(params): body`; each parameter with its default value, if it has one. -/
structure Function where
  params : List (String × Option PyVal)
  body : List Stmt

/-- A class with static methods. -/
structure ClassDef where
  name : String
  bases : List String
  methods : List (String × Function)

/-- A line of `[project.scripts]` in pyproject.toml: the command, and the static method of a class that it runs. -/
structure Command where
  name : String
  cls : String
  method : String

/-- The files. -/
structure Program where
  functions : List (String × Function)
  classes : List ClassDef
  commands : List Command

end Dmr.Script
