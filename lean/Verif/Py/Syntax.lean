import Verif.Text
/-
The part of Python in which the decoders okdmr/kaitai/{etsi,homebrew,hytera,motorola}/*.py are written: its abstract syntax.
`Verif/Py/Source` contains the source files in this form.
-/

set_option autoImplicit false

namespace Dmr.Py

/-- Binary operators. -/
inductive BinOp where
  | add | sub | shl | shr | band

/-- Comparisons. -/
inductive CmpOp where
  | eq | ne | lt | le | gt | ge

/-- Expressions. The dotted names of classes, enumerations and members are given in full (`cls`, `enum`), everything else that
is not a local variable by name (`global`). -/
inductive Expr where
  | none
  | bool (b : Bool)
  | int (n : Int)
  | str (s : String)
  | bytes (b : Bytes)
  /-- a local variable or a parameter -/
  | name (id : String)
  /-- a builtin, or a name of the module kaitaistruct -/
  | global (id : String)
  /-- a class of the library -/
  | cls (name : String)
  /-- an enumeration of the library -/
  | enum (name : String)
  | emptyList
  | attr (e : Expr) (name : String)
  | call (f : Expr) (args : List Expr)
  | bin (op : BinOp) (a b : Expr)
  | cmp (op : CmpOp) (a b : Expr)
  | not (e : Expr)
  | and (a b : Expr)
  | or (a b : Expr)
  /-- `a if c else b` -/
  | ifExp (c a b : Expr)

/-- Statements. -/
inductive Stmt where
  /-- `x = e` -/
  | assign (x : String) (e : Expr)
  /-- `o.x = e` -/
  | setattr (o : Expr) (x : String) (e : Expr)
  | expr (e : Expr)
  | if_ (c : Expr) (t e : List Stmt)
  | for_ (x : String) (it : Expr) (body : List Stmt)
  | while_ (c : Expr) (body : List Stmt)
  | break_
  | pass_
  | raise_ (e : Expr)
  | return_ (e : Expr)

/-- `def f(params): body`. Parameters that are not given are `None`. -/
structure Function where
  params : List String
  body : List Stmt

/-- A class: its methods, and its properties. -/
structure ClassDef where
  name : String
  methods : List (String × Function)
  properties : List (String × Function)

/-- A class that is derived from `Enum`. `name` is its `__name__`. -/
structure EnumDef where
  qualified : String
  name : String
  members : List (String × Nat)

/-- A source file. -/
structure File where
  classes : List ClassDef
  enums : List EnumDef

end Dmr.Py
