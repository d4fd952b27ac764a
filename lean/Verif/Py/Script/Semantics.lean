import Verif.Py.Script.Syntax
import Verif.Py.Source
import Verif.Model.Motorola.MotorolaUtils
import Verif.Model.Tools.Debug
/-
What the statements of Verif/Py/Script/Syntax do. The decoders are run by Verif/Py/Semantics. Whatever is not modelled is `stuck`.
-/

set_option autoImplicit false

namespace Dmr.Script

open Motorola.MotorolaUtils (PyFloat pyBin pyInt2 toBinary64)
open Tools (Output Ending fromHex toHex)

/-- Values. Lists, tuples and dictionaries are values: none is changed after it has been made. -/
inductive V where
  /-- a number, text, byte string, boolean, member of an enumeration, or None -/
  | pv (v : PyVal)
  | float (x : PyFloat)
  /-- an object of a class of the decoders -/
  | obj (r : Nat)
  /-- a `KaitaiStream` -/
  | io (k : Nat)
  /-- a `BytesIO` -/
  | file (b : Bytes)
  | list (l : List V)
  | tuple (l : List V)
  | dict (l : List (String × V))
  /-- a `bytearray` -/
  | buffer (i : Nat)
  /-- a class of the decoders -/
  | cls (name : String)
  /-- a class of these files -/
  | script (name : String)
  /-- a builtin, or something that is imported from the standard library or from kaitaistruct -/
  | global (name : String)
  | lam (x : String) (body : Expr) (env : List (String × V))
  /-- an `argparse.ArgumentParser` -/
  | parser (i : Nat)
  /-- an `argparse.Namespace` -/
  | namespace (l : List (String × V))

mutual
/-- A value of the decoders. -/
def lift : Py.Val → V
  | .pv v => .pv v
  | .obj r => .obj r
  | .io k => .io k
  | .file b => .file b
  | .list l => .list (liftAll l)
/-- The items of a list. -/
def liftAll : List Py.Val → List V
  | [] => []
  | v :: rest => lift v :: liftAll rest
end

mutual
/-- What is given to `pprint`. -/
def freeze : V → Option PyVal
  | .pv v => some v
  | .io _ => some .stream
  | .list l => (freezeAll l).map .list
  | .dict l => (freezeItems l).map .dict
  | _ => none
/-- The items of a list. -/
def freezeAll : List V → Option (List PyVal)
  | [] => some []
  | v :: rest =>
    match freeze v, freezeAll rest with
    | some v, some rest => some (v :: rest)
    | _, _ => none
/-- The items of a dictionary. -/
def freezeItems : List (String × V) → Option (List (String × PyVal))
  | [] => some []
  | (x, v) :: rest =>
    match freeze v, freezeItems rest with
    | some v, some rest => some ((x, v) :: rest)
    | _, _ => none
end

/-- The local variables. -/
abbrev Env := List (String × V)

/-- The memory: that of the decoders, the bytearrays, the names of the arguments of the argument parsers (all of which take one or
more words); `sys.argv`; and what has been written. -/
structure World where
  memory : Py.State
  buffers : List Bytes
  parsers : List (List String)
  argv : List PyStr
  written : List Output

/-- What running a piece of a program leads to. -/
inductive Out (α : Type) where
  | ok (a : α) (w : World)
  | raise (e : PyErr) (w : World)
  /-- `SystemExit` -/
  | exit (w : World)
  /-- not modelled -/
  | stuck

/-- A piece of a program. -/
def S (α : Type) : Type := World → Out α

/-- `f` after it, unless it raised. -/
def Out.bind {α β : Type} (o : Out α) (f : α → World → Out β) : Out β :=
  match o with
  | .ok a w => f a w
  | .raise e w => .raise e w
  | .exit w => .exit w
  | .stuck => .stuck

instance : Monad S where
  pure a := fun w => .ok a w
  bind m f := fun w => (m w).bind fun a w' => f a w'

/-- Running it. -/
def S.run {α : Type} (m : S α) (w : World) : Out α := m w

/-- `raise e`. -/
def raise {α : Type} (e : PyErr) : S α := fun w => .raise e w

/-- Not modelled. -/
def stuck {α : Type} : S α := fun _ => .stuck

/-- Something that the decoders do. -/
def decoders {α : Type} (m : Py.M α) : S α := fun w =>
  match m.run w.memory with
  | .ok a σ => .ok a { w with memory := σ }
  | .raise e σ => .raise e { w with memory := σ }

/-- Something that may be undefined. -/
def defined {α : Type} : Option α → S α
  | some a => pure a
  | none => stuck

/-- Something that may raise. -/
def except {α : Type} : Except PyErr α → S α
  | .ok a => pure a
  | .error e => raise e

/-- A new bytearray. -/
def newBuffer (b : Bytes) : S V := fun w => .ok (.buffer w.buffers.length) { w with buffers := w.buffers ++ [b] }

/-- The contents of a bytearray. -/
def readBuffer (i : Nat) : S Bytes := fun w =>
  match w.buffers[i]? with
  | some b => .ok b w
  | none => .stuck

/-- New contents of a bytearray. -/
def writeBuffer (i : Nat) (b : Bytes) : S Unit := fun w => .ok () { w with buffers := w.buffers.set i b }

/-- Writing. -/
def write (o : Output) : S V := fun w => .ok (.pv .none) { w with written := w.written ++ [o] }

/-- The truth value of a value. -/
def truth : V → S Bool
  | .pv v => pure (Py.truthy (.pv v))
  | .list l => pure (!l.isEmpty)
  | .obj _ => pure true
  | _ => stuck

/-- `a == b`. -/
def same : V → V → S Bool
  | .pv a, .pv b => pure (Py.same (.pv a) (.pv b))
  | _, _ => stuck

/-- `a is b` if `b` is a member of an enumeration: there is only one object for each member. -/
def identical : V → V → S Bool
  | .pv (.enum c a), .pv (.enum d b) => pure (c == d && a == b)
  | .pv _, .pv (.enum _ _) => pure false
  | _, _ => stuck

/-- `a in items`. -/
def contains (a : V) : List V → S Bool
  | [] => pure false
  | b :: rest => do if ← same a b then pure true else contains a rest

/-- The operators. The results of `/` and of the addition of floats are rounded (Verif/Model/Motorola/MotorolaUtils); OverflowError
if an integer is too large for a float, or the quotient is. Only floats that are not negative are added, and only if the sum
is not too large. -/
def BinOp.apply : BinOp → V → V → S V
  | .add, .pv (.int a), .pv (.int b) => pure (.pv (.int (a + b)))
  | .add, .pv (.str a), .pv (.str b) => pure (.pv (.str (a ++ b)))
  | .add, .pv (.int (.ofNat a)), .float ⟨false, y⟩ => do
    let x ← except (toBinary64 a)
    match toBinary64 (x + y) with
    | .ok z => pure (.float ⟨false, z⟩)
    | .error _ => stuck
  | .sub, .pv (.int a), .pv (.int b) => pure (.pv (.int (a - b)))
  | .div, .pv (.int (.ofNat a)), .pv (.int (.ofNat b)) =>
    if b = 0 then stuck else do
      let x ← except (toBinary64 ((a : ℚ) / b))
      pure (.float ⟨false, x⟩)
  | .mod, .pv (.int a), .pv (.int b) => if b ≤ 0 then stuck else pure (.pv (.int (a % b)))
  | .pow, .pv (.int a), .pv (.int b) => if b < 0 then stuck else pure (.pv (.int (a ^ b.toNat)))
  | .shl, .pv (.int a), .pv (.int b) => if b < 0 then raise .value else pure (.pv (.int (a * 2 ^ b.toNat)))
  | .band, .pv (.int (.ofNat a)), .pv (.int (.ofNat b)) => pure (.pv (.int (.ofNat (a &&& b))))
  | _, _, _ => stuck

/-- `-a`. -/
def negate : V → S V
  | .pv (.int a) => pure (.pv (.int (-a)))
  | .float x => pure (.float ⟨!x.negative, x.magnitude⟩)
  | _ => stuck

/-- The comparisons. -/
def CmpOp.apply : CmpOp → V → V → S Bool
  | .eq, a, b => same a b
  | .ne, a, b => do return !(← same a b)
  | .lt, .pv (.int a), .pv (.int b) => pure (decide (a < b))
  | .le, .pv (.int a), .pv (.int b) => pure (decide (a ≤ b))
  | .gt, .pv (.int a), .pv (.int b) => pure (decide (b < a))
  | .ge, .pv (.int a), .pv (.int b) => pure (decide (b ≤ a))
  | .is_, a, b => identical a b
  | .isNot, a, b => do return !(← identical a b)
  | .in_, a, .list l => contains a l
  | .notIn, a, .list l => do return !(← contains a l)
  | _, _, _ => stuck

/-- Without the first `skip` items, the first of the others, and from there on those that have `gap` items between them. -/
def every {α : Type} (gap : Nat) : Nat → List α → List α
  | _, [] => []
  | 0, x :: rest => x :: every gap gap rest
  | skip + 1, _ :: rest => every gap skip rest

/-- The items at these places replaced by other ones. -/
def replaceEvery {α : Type} (gap : Nat) : Nat → List α → List α → List α
  | _, [], _ => []
  | _, l, [] => l
  | 0, _ :: rest, v :: vs => v :: replaceEvery gap gap rest vs
  | skip + 1, x :: rest, vs => x :: replaceEvery gap skip rest vs

/-- A bound of a slice of a sequence of length `n`: None is `default`, negative numbers count from the end. -/
def bound (n default : Nat) : V → Option Nat
  | .pv .none => some default
  | .pv (.int i) => some (if i < 0 then (n + i).toNat else min i.toNat n)
  | _ => none

/-- The step of a slice; it has to be positive here. -/
def stepOf : V → Option Nat
  | .pv .none => some 1
  | .pv (.int i) => if i ≤ 0 then none else some i.toNat
  | _ => none

/-- `l[lo:hi:step]`. -/
def sliced {α : Type} (l : List α) (lo hi step : V) : Option (List α) := do
  let a ← bound l.length 0 lo
  let b ← bound l.length l.length hi
  let s ← stepOf step
  return every (s - 1) 0 ((l.take b).drop a)

/-- `l[lo:hi:step] = values` for a step greater than 1: ValueError unless there are as many values as places. -/
def assignSlice {α : Type} (l : List α) (lo hi step : V) (values : List α) : Option (Except PyErr (List α)) := do
  let a ← bound l.length 0 lo
  let b ← bound l.length l.length hi
  let s ← stepOf step
  if s ≤ 1 then none
  else if values.length = (every (s - 1) 0 ((l.take b).drop a)).length then
    return .ok (l.take a ++ replaceEvery (s - 1) 0 ((l.take b).drop a) values ++ l.drop (max a b))
  else return .error .value

/-- `v[lo:hi:step]`. A slice of a bytearray is a new one. -/
def sliceOf (lo hi step : V) : V → S V
  | .list l => do return .list (← defined (sliced l lo hi step))
  | .pv (.str s) => do return .pv (.str (← defined (sliced s lo hi step)))
  | .pv (.bytes b) => do return .pv (.bytes (← defined (sliced b lo hi step)))
  | .buffer i => do newBuffer (← defined (sliced (← readBuffer i) lo hi step))
  | _ => stuck

/-- `v[i]`: IndexError if there is no such item. -/
def itemOf : V → V → S V
  | .list l, .pv (.int i) =>
    match l[if i < 0 then (l.length + i).toNat else i.toNat]? with
    | some v => if i < 0 ∧ l.length + i < 0 then raise .index else pure v
    | none => raise .index
  | _, _ => stuck

/-- `{x: v}` in a dictionary: a new key goes to the end. -/
def upsert (x : String) (v : V) : List (String × V) → List (String × V)
  | [] => [(x, v)]
  | (y, w) :: rest => if x = y then (x, v) :: rest else (y, w) :: upsert x v rest

/-- What calls do: of a function, of a static method, of a lambda expression, and within the decoders. -/
structure Calls where
  function : String → List V → List (String × V) → S V
  static : String → String → List V → List (String × V) → S V
  lambda : String → Expr → Env → V → S V
  library : Py.Calls

/-- `list(map(f, items))`; the items that `map` gives are only ever made into a list. -/
def mapItems (f : V → S V) : List V → S (List V)
  | [] => pure []
  | v :: rest => do
    let x ← f v
    return x :: (← mapItems f rest)

/-- `isinstance(v, c)`: all objects of the decoders are of classes that are derived from KaitaiStruct, and from no other one. -/
def isInstance : V → V → S Bool
  | .obj _, .global "KaitaiStruct" => pure true
  | _, .global "KaitaiStruct" => pure false
  | .list _, .global "list" => pure true
  | _, .global "list" => pure false
  | .obj r, .cls c => do return (← decoders (Py.fetch r)).cls == c
  | _, _ => stuck

/-- Is it a text of binary digits? -/
def isBinary (s : PyStr) : Bool := !s.isEmpty && s.all fun c => c == '0' || c == '1'

/-- A new argument parser. -/
def newParser : S V := fun w => .ok (.parser w.parsers.length) { w with parsers := w.parsers ++ [[]] }

/-- Builtins, and what is imported. -/
def builtin (c : Calls) : String → List V → List (String × V) → S V
  | "len", [.list l], [] => pure (.pv (.int l.length))
  | "len", [.pv (.bytes b)], [] => pure (.pv (.int b.length))
  | "len", [.buffer i], [] => do return .pv (.int (← readBuffer i).length)
  | "bin", [.pv (.int (.ofNat n))], [] => pure (.pv (.str (pyBin n)))
  | "int", [.pv (.str s), .pv (.int 2)], [] => if isBinary s then pure (.pv (.int (pyInt2 s))) else stuck
  | "bytes", [.buffer i], [] => do return .pv (.bytes (← readBuffer i))
  | "bytearray", [.pv (.bytes b)], [] => newBuffer b
  | "list", [.list l], [] => pure (.list l)
  | "map", [.lam x body env, .list l], [] => do return .list (← mapItems (c.lambda x body env) l)
  | "isinstance", [v, t], [] => do return .pv (.bool (← isInstance v t))
  | "getattr", [.obj r, .pv (.str x)], [] => do return lift (← decoders (Py.getattr c.library (.obj r) (String.ofList x)))
  | "print", [.pv (.str s)], [] => write (.line s)
  | "pprint", [v], [("stream", .pv .none)] => do write (.pprint (← defined (freeze v)))
  | "ArgumentParser", [], [("description", .pv (.str _))] => newParser
  | _, _, _ => stuck

/-- The texts in a list. -/
def texts : List V → Option (List PyStr)
  | [] => some []
  | .pv (.str s) :: rest => (texts rest).map (s :: ·)
  | _ => none

/-- `parser.parse_args(words)` for a parser with one argument that takes one or more words, none of which begins with `-`: without
words, the usage is shown, and the program is left. -/
def parseArgs (names : List String) (words : List PyStr) : S V :=
  match names with
  | [x] =>
    if words.any fun s => s.head? == some '-' then stuck
    else if words.isEmpty then fun w => .exit w
    else pure (.namespace [(x, .list (words.map fun s => .pv (.str s)))])
  | _ => stuck

/-- `v.m(args, kwargs)`. -/
def invoke (c : Calls) : V → String → List V → List (String × V) → S V
  | .script n, m, args, kwargs => c.static n m args kwargs
  | .cls n, "from_bytes", [.pv (.bytes b)], [] => decoders do
    let k ← Py.open_ b
    return lift (← c.library.construct n [.io k])
  | .dict l, "items", [], [] => pure (.list (l.map fun a => .tuple [.pv (.str a.1.toList), a.2]))
  | .buffer i, "append", [.pv (.int n)], [] => do
    if n < 0 ∨ 255 < n then raise .value
    else do
      writeBuffer i ((← readBuffer i) ++ [UInt8.ofNat n.toNat])
      return .pv .none
  | .pv (.bytes b), "hex", [], [] => pure (.pv (.str (toHex b)))
  | .global "bytes", "fromhex", [.pv (.str s)], [] => do return .pv (.bytes (← except (fromHex s)))
  | .parser i, "add_argument", [.pv (.str x)],
      [("type", .global "str"), ("nargs", .pv (.str ['+'])), ("help", .pv (.str _))] => fun w =>
    match w.parsers[i]? with
    | some names => .ok (.pv .none) { w with parsers := w.parsers.set i (names ++ [String.ofList x]) }
    | none => .stuck
  | .parser i, "parse_args", [.list l], [] => fun w =>
    match w.parsers[i]?, texts l with
    | some names, some words => (parseArgs names words).run w
    | _, _ => .stuck
  | _, _, _, _ => stuck

/-- `v.x`. -/
def getattr (c : Calls) : V → String → S V
  | .obj r, "__dict__" => do return .dict ((← decoders (Py.fetch r)).attrs.map fun a => (a.1, lift a.2))
  | .obj r, x => do return lift (← decoders (Py.getattr c.library (.obj r) x))
  | .namespace l, x => defined (l.lookup x)
  | .global "sys", "argv" => fun w => .ok (.list (w.argv.map fun s => .pv (.str s))) w
  | _, _ => stuck

/-- The text of an f-string from the values in it. -/
def formatted : List V → Option PyStr
  | [] => some []
  | .pv (.str s) :: rest => (formatted rest).map (s ++ ·)
  | _ => none

/-- A dictionary comprehension over items that are pairs. -/
def comprehension (key value : Env → S V) (cond : Env → S Bool) (x y : String) (env : Env) : List V → List (String × V) → S (List (String × V))
  | [], d => pure d
  | .tuple [k, v] :: rest, d => do
    let env' := upsert y v (upsert x k env)
    if ← cond env' then
      match ← key env' with
      | .pv (.str s) => do
        let v ← value env'
        comprehension key value cond x y env rest (upsert (String.ofList s) v d)
      | _ => stuck
    else comprehension key value cond x y env rest d
  | _, _ => stuck

mutual
/-- The value of an expression. -/
def eval (c : Calls) (env : Env) : Expr → S V
  | .none => pure (.pv .none)
  | .bool b => pure (.pv (.bool b))
  | .int n => pure (.pv (.int n))
  | .str s => pure (.pv (.str s.toList))
  | .name x => defined (env.lookup x)
  | .func _ | .enum _ => stuck
  | .script n => pure (.script n)
  | .cls n => pure (.cls n)
  | .global g => pure (.global g)
  | .attr (.enum e) m =>
    match Py.library.enums.find? (fun d => d.qualified == e) with
    | some d =>
      match d.members.lookup m with
      | some v => pure (.pv (.enum d.name v))
      | none => stuck
    | none => stuck
  | .attr e x => do getattr c (← eval c env e) x
  | .call (.func f) args kwargs => do
    let vs ← evals c env args
    c.function f vs (← evalKw c env kwargs)
  | .call (.global g) args kwargs => do
    let vs ← evals c env args
    builtin c g vs (← evalKw c env kwargs)
  | .call (.attr e m) args kwargs => do
    let v ← eval c env e
    let vs ← evals c env args
    invoke c v m vs (← evalKw c env kwargs)
  | .call _ _ _ => stuck
  | .bin op a b => do
    let x ← eval c env a
    op.apply x (← eval c env b)
  | .neg a => do negate (← eval c env a)
  | .cmp op a b => do
    let x ← eval c env a
    return .pv (.bool (← op.apply x (← eval c env b)))
  | .not a => do return .pv (.bool (!(← truth (← eval c env a))))
  | .and a b => do
    let x ← eval c env a
    if ← truth x then eval c env b else pure x
  | .or a b => do
    let x ← eval c env a
    if ← truth x then pure x else eval c env b
  | .ifExp t a b => do if ← truth (← eval c env t) then eval c env a else eval c env b
  | .list items => do return .list (← evals c env items)
  | .tuple items => do return .tuple (← evals c env items)
  | .index a i => do
    let v ← eval c env a
    itemOf v (← eval c env i)
  | .slice a lo hi step => do
    let v ← eval c env a
    let l ← eval c env lo
    let h ← eval c env hi
    sliceOf l h (← eval c env step) v
  | .format parts => do return .pv (.str (← defined (formatted (← evals c env parts))))
  | .dictComp key value x y items t => do
    match ← eval c env items with
    | .list l => do
      return .dict (← comprehension (fun e => eval c e key) (fun e => eval c e value) (fun e => do truth (← eval c e t)) x y env l [])
    | _ => stuck
  | .lam x body => pure (.lam x body env)
/-- The values of the arguments, from left to right. -/
def evals (c : Calls) (env : Env) : List Expr → S (List V)
  | [] => pure []
  | e :: rest => do
    let v ← eval c env e
    return v :: (← evals c env rest)
/-- Those that are given by name. -/
def evalKw (c : Calls) (env : Env) : List (String × Expr) → S (List (String × V))
  | [] => pure []
  | (x, e) :: rest => do
    let v ← eval c env e
    return (x, v) :: (← evalKw c env rest)
end

/-- Where a statement leads. -/
inductive Flow where
  | next (env : Env)
  | ret (v : V)

/-- Assignment to a name, or to a slice of a bytearray. -/
def assignTo (c : Calls) (v : V) (env : Env) : Expr → S Env
  | .name x => pure (upsert x v env)
  | .slice a lo hi step => do
    match ← eval c env a with
    | .buffer i => do
      let l ← eval c env lo
      let h ← eval c env hi
      let s ← eval c env step
      match v with
      | .buffer j => do
        let values ← readBuffer j
        writeBuffer i (← except (← defined (assignSlice (← readBuffer i) l h s values)))
        return env
      | _ => stuck
    | _ => stuck
  | _ => stuck

/-- Assignment to several targets, from left to right. -/
def assignAll (c : Calls) : List Expr → List V → Env → S Env
  | [], [], env => pure env
  | t :: ts, v :: vs, env => do assignAll c ts vs (← assignTo c v env t)
  | _, _, _ => stuck

/-- `for x in items: body`. -/
def forLoop (body : Env → S Flow) (x : String) : List V → Env → S Flow
  | [], env => pure (.next env)
  | v :: rest, env => do
    match ← body (upsert x v env) with
    | .next env => forLoop body x rest env
    | .ret v => pure (.ret v)

mutual
/-- A statement. -/
def exec (c : Calls) : Stmt → Env → S Flow
  | .assign (.tuple ts) e, env => do
    match ← eval c env e with
    | .tuple vs => do return .next (← assignAll c ts vs env)
    | _ => stuck
  | .assign t e, env => do
    let v ← eval c env e
    return .next (← assignTo c v env t)
  | .expr e, env => do
    let _ ← eval c env e
    return .next env
  | .if_ t a b, env => do if ← truth (← eval c env t) then execs c a env else execs c b env
  | .for_ x it body, env => do
    match ← eval c env it with
    | .list l => forLoop (fun env => execs c body env) x l env
    | _ => stuck
  | .return_ e, env => do return .ret (← eval c env e)
/-- Statements in order. -/
def execs (c : Calls) : List Stmt → Env → S Flow
  | [], env => pure (.next env)
  | st :: rest, env => do
    match ← exec c st env with
    | .next env => execs c rest env
    | f => pure f
end

/-- The parameters of a function from what is given by position, what is given by name, and the defaults. -/
def bindArgs : List (String × Option PyVal) → List V → List (String × V) → Option Env
  | [], [], [] => some []
  | (x, _) :: ps, v :: vs, kwargs => (bindArgs ps vs kwargs).map ((x, v) :: ·)
  | (x, d) :: ps, [], kwargs =>
    match kwargs.lookup x, d with
    | some v, _ => (bindArgs ps [] (kwargs.filter fun a => a.1 != x)).map ((x, v) :: ·)
    | none, some d => (bindArgs ps [] kwargs).map ((x, .pv d) :: ·)
    | none, none => none
  | _, _, _ => none

/-- `f(args, kwargs)`. -/
def Function.call (c : Calls) (f : Function) (args : List V) (kwargs : List (String × V)) : S V := do
  match ← execs c f.body (← defined (bindArgs f.params args kwargs)) with
  | .ret v => pure v
  | .next _ => pure (.pv .none)

/-- The static method `m` of a class: its own, or else that of the class it is derived from (the number bounds how far). -/
def Program.method (P : Program) (m : String) : Nat → String → Option Function
  | 0, _ => none
  | n + 1, cls =>
    match P.classes.find? fun d => d.name == cls with
    | some d =>
      match d.methods.lookup m with
      | some f => some f
      | none => d.bases.findSome? fun b => P.method m n b
    | none => none

/-- Calls. The number bounds their nesting (`diverge` if it is too small). -/
def calls (P : Program) : Nat → Calls
  | 0 => ⟨fun _ _ _ => raise .diverge, fun _ _ _ _ => raise .diverge, fun _ _ _ _ => raise .diverge, Py.calls Py.library 0⟩
  | n + 1 =>
    { function := fun f args kwargs => do (← defined (P.functions.lookup f)).call (calls P n) args kwargs
      static := fun cls m args kwargs => do (← defined (P.method m P.classes.length cls)).call (calls P n) args kwargs
      lambda := fun x body env v => eval (calls P n) (upsert x v env) body
      library := Py.calls Py.library (n + 1) }

/-- How a program ends. -/
def Out.ending {α : Type} : Out α → Option (List Output × Ending)
  | .ok _ w => some (w.written, .done)
  | .raise e w => some (w.written, .exception e)
  | .exit w => some (w.written, .usage)
  | .stuck => none

/-- The memory when a program starts. -/
def World.start (argv : List PyStr) : World := ⟨⟨[], []⟩, [], [], argv, []⟩

/-- Running a command: what it has written, and how it ended; `none` if it is not modelled. The first item of `argv` is the name
under which it was called. -/
def runCommand (P : Program) (n : Nat) (command : String) (argv : List PyStr) : Option (List Output × Ending) :=
  match P.commands.find? fun d => d.name == command with
  | some d => (((calls P n).static d.cls d.method [] []).run (.start argv)).ending
  | none => none

end Dmr.Script
