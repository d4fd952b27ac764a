import Verif.Py.Syntax
import Verif.Model.Tools.PyVal
/-
What the statements of Verif/Py/Syntax do. Objects live in a heap, and refer to each other by their number in it; streams
likewise. The primitives of the streams are those of Verif/Runtime.
-/

set_option autoImplicit false

namespace Dmr.Py

/-- Values. Lists are values: every list of the decoders is made by `self.x = []` and only ever reached as `self.x`. -/
inductive Val where
  /-- a number, text, byte string, boolean, member of an enumeration, or None -/
  | pv (v : PyVal)
  /-- an object -/
  | obj (r : Nat)
  /-- a stream (`KaitaiStream`) -/
  | io (k : Nat)
  /-- a `BytesIO` -/
  | file (b : Bytes)
  | list (l : List Val)

/-- An object: its class, and its `__dict__` in the order in which the attributes were assigned. -/
structure Obj where
  cls : String
  attrs : List (String × Val)

/-- The memory. -/
structure State where
  heap : List Obj
  streams : List Stream

/-- What running a piece of a program leads to. -/
inductive Out (α : Type) where
  | ok (a : α) (σ : State)
  | raise (e : PyErr) (σ : State)

/-- A piece of a program. -/
def M (α : Type) : Type := State → Out α

/-- `f` after it, unless it raised. -/
def Out.bind {α β : Type} (o : Out α) (f : α → State → Out β) : Out β :=
  match o with
  | .ok a σ => f a σ
  | .raise e σ => .raise e σ

instance : Monad M where
  pure a := fun σ => .ok a σ
  bind m f := fun σ => (m σ).bind fun a σ' => f a σ'

/-- Running it. -/
def M.run {α : Type} (m : M α) (σ : State) : Out α := m σ

/-- `raise e`. -/
def raise {α : Type} (e : PyErr) : M α := fun σ => .raise e σ

/-- What a reader does to a stream, and what follows. -/
def after {α β : Type} (r : Rd α) (s : Stream) (err : PyErr → Stream → Out β) (ok : α → Stream → Out β) : Out β :=
  match r s with
  | (.ok a, s) => ok a s
  | (.error e, s) => err e s

/-- A primitive of the stream `k`. -/
def onStream {α : Type} (k : Nat) (r : Rd α) : M α := fun σ =>
  match σ.streams[k]? with
  | some s => after r s (fun e s' => .raise e ⟨σ.heap, σ.streams.set k s'⟩) (fun a s' => .ok a ⟨σ.heap, σ.streams.set k s'⟩)
  | none => .raise .attribute σ

/-- `x = v` in a dictionary: a new key goes to the end. -/
def upsert (x : String) (v : Val) : List (String × Val) → List (String × Val)
  | [] => [(x, v)]
  | (y, w) :: rest => if x = y then (x, v) :: rest else (y, w) :: upsert x v rest

/-- The object with the number `r`. -/
def fetch (r : Nat) : M Obj := fun σ =>
  match σ.heap[r]? with
  | some o => .ok o σ
  | none => .raise .attribute σ

/-- `o.x = v` for the object with the number `r`. -/
def store (r : Nat) (x : String) (v : Val) : M Unit := fun σ =>
  match σ.heap[r]? with
  | some o => .ok () ⟨σ.heap.set r ⟨o.cls, upsert x v o.attrs⟩, σ.streams⟩
  | none => .raise .attribute σ

/-- A new object without attributes. -/
def alloc (cls : String) : M Nat := fun σ => .ok σ.heap.length ⟨σ.heap ++ [⟨cls, []⟩], σ.streams⟩

/-- A new stream. -/
def open_ (b : Bytes) : M Nat := fun σ => .ok σ.streams.length ⟨σ.heap, σ.streams ++ [Stream.new b]⟩

/-- The truth value of a value. -/
def truthy : Val → Bool
  | .pv .none => false
  | .pv (.bool b) => b
  | .pv (.int i) => i != 0
  | .pv (.bytes b) => !b.isEmpty
  | .pv (.str s) => !s.isEmpty
  | .list l => !l.isEmpty
  | _ => true

/-- `a == b` for numbers, booleans, texts, byte strings, members of enumerations and None; objects are not compared. -/
def same : Val → Val → Bool
  | .pv (.int a), .pv (.int b) => a == b
  | .pv (.bool a), .pv (.bool b) => a == b
  | .pv (.int a), .pv (.bool b) => a == b.toNat
  | .pv (.bool a), .pv (.int b) => (a.toNat : Int) == b
  | .pv (.str a), .pv (.str b) => a == b
  | .pv (.bytes a), .pv (.bytes b) => a == b
  | .pv (.enum c a), .pv (.enum d b) => c == d && a == b
  | .pv .none, .pv .none => true
  | _, _ => false

/-- The operators. Shifts by a negative number are a ValueError. -/
def BinOp.apply : BinOp → Val → Val → M Val
  | .add, .pv (.int a), .pv (.int b) => pure (.pv (.int (a + b)))
  | .add, .pv (.str a), .pv (.str b) => pure (.pv (.str (a ++ b)))
  | .sub, .pv (.int a), .pv (.int b) => pure (.pv (.int (a - b)))
  | .shl, .pv (.int a), .pv (.int b) => if b < 0 then raise .value else pure (.pv (.int (a * 2 ^ b.toNat)))
  | .shr, .pv (.int a), .pv (.int b) => if b < 0 then raise .value else pure (.pv (.int (a / 2 ^ b.toNat)))
  | .band, .pv (.int (.ofNat a)), .pv (.int (.ofNat b)) => pure (.pv (.int (.ofNat (a &&& b))))
  | _, _, _ => raise .attribute

/-- The comparisons. -/
def CmpOp.apply : CmpOp → Val → Val → M Val
  | .eq, a, b => pure (.pv (.bool (same a b)))
  | .ne, a, b => pure (.pv (.bool (!same a b)))
  | .lt, .pv (.int a), .pv (.int b) => pure (.pv (.bool (decide (a < b))))
  | .le, .pv (.int a), .pv (.int b) => pure (.pv (.bool (decide (a ≤ b))))
  | .gt, .pv (.int a), .pv (.int b) => pure (.pv (.bool (decide (b < a))))
  | .ge, .pv (.int a), .pv (.int b) => pure (.pv (.bool (decide (b ≤ a))))
  | _, _, _ => raise .attribute

/-- `bytes.decode(encoding)`. -/
def codec (encoding : String) : Option (Bytes → Option PyStr) :=
  match encoding with
  | "ASCII" => some decodeAscii
  | "UTF-8" => some decodeUtf8
  | "UTF-16LE" | "utf-16-le" => some decodeUtf16le
  | "utf-16-be" => some decodeUtf16be
  | _ => none

/-- The methods of `KaitaiStream`. -/
def ioMethod (k : Nat) : String → List Val → M Val
  | "read_u1", [] => do return .pv (.int (Int.ofNat (← onStream k readU1)))
  | "read_u2be", [] => do return .pv (.int (Int.ofNat (← onStream k readU2be)))
  | "read_u2le", [] => do return .pv (.int (Int.ofNat (← onStream k readU2le)))
  | "read_u4be", [] => do return .pv (.int (Int.ofNat (← onStream k readU4be)))
  | "read_u4le", [] => do return .pv (.int (Int.ofNat (← onStream k readU4le)))
  | "read_s2be", [] => do return .pv (.int (← onStream k readS2be))
  | "read_bits_int_be", [.pv (.int (.ofNat n))] => do return .pv (.int (Int.ofNat (← onStream k (readBitsIntBe n))))
  | "read_bytes", [.pv (.int n)] => do return .pv (.bytes (← onStream k (readBytesInt n)))
  | "read_bytes_full", [] => do return .pv (.bytes (← onStream k readBytesFull))
  | "align_to_byte", [] => do onStream k alignToByte; return .pv .none
  | "is_eof", [] => do return .pv (.bool (← onStream k isEof))
  | "pos", [] => do return .pv (.int (Int.ofNat (← onStream k posIo)))
  | "size", [] => do return .pv (.int (Int.ofNat (← onStream k sizeIo)))
  | "seek", [.pv (.int n)] => do
    if n < 0 then raise .value else onStream k (seekIo n.toNat)
    return .pv .none
  | _, _ => raise .attribute

/-- The number as decimal text. -/
def decimal (n : Int) : PyStr := if n < 0 then '-' :: Nat.toDigits 10 (-n).toNat else Nat.toDigits 10 n.toNat

/-- Builtins, and the names of the module kaitaistruct that are called. -/
def builtin : String → List Val → M Val
  | "int", [.pv (.bool b)] => pure (.pv (.int b.toNat))
  | "int", [.pv (.int n)] => pure (.pv (.int n))
  | "str", [.pv (.int n)] => pure (.pv (.str (decimal n)))
  | "range", [.pv (.int n)] => pure (.list ((List.range n.toNat).map fun (i : Nat) => .pv (.int i)))
  | "BytesIO", [.pv (.bytes b)] => pure (.file b)
  | "KaitaiStream", [.file b] => do return .io (← open_ b)
  | "hasattr", [.obj r, .pv (.str x)] => do return .pv (.bool ((← fetch r).attrs.lookup (String.ofList x)).isSome)
  | "getattr", [.obj r, .pv (.str x), d] => do return ((← fetch r).attrs.lookup (String.ofList x)).getD d
  | _, _ => raise .attribute

/-- `KaitaiStream.resolve_enum`: the member with that value, or the number itself. -/
def EnumDef.resolve (e : EnumDef) (v : Nat) : PyVal :=
  if e.members.any (fun m => m.2 == v) then .enum e.name v else .int v

/-- The library: its classes and enumerations. -/
structure Program where
  classes : List ClassDef
  enums : List EnumDef

/-- The local variables. -/
abbrev Env := List (String × Val)

/-- What calls do: of a class, of a method of an object, and the use of a property. -/
structure Calls where
  construct : String → List Val → M Val
  method : Nat → String → List Val → M Val
  property : Nat → String → M Val

/-- An attribute of a value: of an object the one in its dictionary, or else the property of its class. -/
def getattr (c : Calls) : Val → String → M Val
  | .obj r, x => do
    match (← fetch r).attrs.lookup x with
    | some v => return v
    | none => c.property r x
  | .pv (.enum _ v), "value" => return .pv (.int (Int.ofNat v))
  | _, _ => raise .attribute

/-- `v.m(args)`. -/
def invoke (c : Calls) : Val → String → List Val → M Val
  | .obj r, m, args => c.method r m args
  | .io k, m, args => ioMethod k m args
  | .pv (.bytes b), "decode", [.pv (.str e)] =>
    match codec (String.ofList e) with
    | some f =>
      match f b with
      | some s => return .pv (.str s)
      | none => raise .unicode
    | none => raise .attribute
  | _, _, _ => raise .attribute

mutual
/-- The value of an expression. -/
def eval (P : Program) (c : Calls) (env : Env) : Expr → M Val
  | .none => return .pv .none
  | .bool b => return .pv (.bool b)
  | .int n => return .pv (.int n)
  | .str s => return .pv (.str s.toList)
  | .bytes b => return .pv (.bytes b)
  | .emptyList => return .list []
  | .name x =>
    match env.lookup x with
    | some v => return v
    | none => raise .attribute
  | .global _ | .cls _ | .enum _ => raise .attribute
  | .attr (.enum e) m =>
    match P.enums.find? (fun d => d.qualified == e) with
    | some d =>
      match d.members.lookup m with
      | some v => return .pv (.enum d.name v)
      | none => raise .attribute
    | none => raise .attribute
  | .attr e x => do getattr c (← eval P c env e) x
  | .call (.cls n) args => do c.construct n (← evals P c env args)
  | .call (.global g) args => do builtin g (← evals P c env args)
  | .call (.attr (.global "KaitaiStream") "resolve_enum") [.enum e, x] => do
    match P.enums.find? (fun d => d.qualified == e), ← eval P c env x with
    | some d, .pv (.int (.ofNat v)) => return .pv (d.resolve v)
    | _, _ => raise .attribute
  | .call (.attr e m) args => do
    let v ← eval P c env e
    invoke c v m (← evals P c env args)
  | .call _ _ => raise .attribute
  | .bin op a b => do
    let x ← eval P c env a
    op.apply x (← eval P c env b)
  | .cmp op a b => do
    let x ← eval P c env a
    op.apply x (← eval P c env b)
  | .not e => do return .pv (.bool (!truthy (← eval P c env e)))
  | .and a b => do
    let x ← eval P c env a
    if truthy x then eval P c env b else return x
  | .or a b => do
    let x ← eval P c env a
    if truthy x then return x else eval P c env b
  | .ifExp t a b => do if truthy (← eval P c env t) then eval P c env a else eval P c env b
/-- The values of the arguments, from left to right. -/
def evals (P : Program) (c : Calls) (env : Env) : List Expr → M (List Val)
  | [] => return []
  | e :: rest => do
    let v ← eval P c env e
    return v :: (← evals P c env rest)
end

/-- Where a statement leads. -/
inductive Flow where
  | next (env : Env)
  | brk (env : Env)
  | ret (v : Val)

/-- `for x in items: body`. -/
def forLoop (body : Env → M Flow) (x : String) : List Val → Env → M Flow
  | [], env => return .next env
  | v :: rest, env => do
    match ← body (upsert x v env) with
    | .next env => forLoop body x rest env
    | .brk env => return .next env
    | .ret v => return .ret v

/-- `while c: body`, at most so many times (`diverge` if that is not enough). -/
def whileLoop (c : Env → M Bool) (body : Env → M Flow) : Nat → Env → M Flow
  | n, env => do
    if ← c env then
      match n with
      | 0 => raise .diverge
      | n + 1 =>
        match ← body env with
        | .next env => whileLoop c body n env
        | .brk env => return .next env
        | .ret v => return .ret v
    else return .next env

/-- How often a loop may run: more often than the stream of the object `self` has bytes. If a loop stops within that, this
bound has no effect. -/
def loopBound (env : Env) : M Nat := fun σ =>
  match env.lookup "self" with
  | some (.obj r) =>
    match σ.heap[r]? with
    | some o =>
      match o.attrs.lookup "_io" with
      | some (.io k) =>
        match σ.streams[k]? with
        | some s => .ok (s.buf.length + 2) σ
        | none => .raise .attribute σ
      | _ => .raise .attribute σ
    | none => .raise .attribute σ
  | _ => .raise .attribute σ

mutual
/-- A statement. -/
def exec (P : Program) (c : Calls) : Stmt → Env → M Flow
  | .assign x e, env => do return .next (upsert x (← eval P c env e) env)
  | .setattr o x e, env => do
    let v ← eval P c env e
    match ← eval P c env o with
    | .obj r => do
      store r x v
      return .next env
    | _ => raise .attribute
  | .expr (.call (.attr (.attr o x) "append") [e]), env => do
    match ← eval P c env o with
    | .obj r => do
      match (← fetch r).attrs.lookup x with
      | some (.list _) => do
        let v ← eval P c env e
        match (← fetch r).attrs.lookup x with
        | some (.list l) => do
          store r x (.list (l ++ [v]))
          return .next env
        | _ => raise .attribute
      | _ => raise .attribute
    | _ => raise .attribute
  | .expr e, env => do
    let _ ← eval P c env e
    return .next env
  | .if_ t a b, env => do if truthy (← eval P c env t) then execs P c a env else execs P c b env
  | .for_ x it body, env => do
    match ← eval P c env it with
    | .list l => forLoop (fun env => execs P c body env) x l env
    | _ => raise .attribute
  | .while_ t body, env => do
    let n ← loopBound env
    whileLoop (fun env => do return truthy (← eval P c env t)) (fun env => execs P c body env) n env
  | .break_, env => return .brk env
  | .pass_, env => return .next env
  | .raise_ (.call (.attr (.global "kaitaistruct") "ValidationNotEqualError") [a, b, d, .str place]), env => do
    let _ ← eval P c env a
    let _ ← eval P c env b
    let _ ← eval P c env d
    raise (.validation place)
  | .raise_ _, _ => raise .attribute
  | .return_ e, env => do return .ret (← eval P c env e)
/-- Statements in order. -/
def execs (P : Program) (c : Calls) : List Stmt → Env → M Flow
  | [], env => return .next env
  | st :: rest, env => do
    match ← exec P c st env with
    | .next env => execs P c rest env
    | f => return f
end

/-- `f(args)`. -/
def Function.call (P : Program) (c : Calls) (f : Function) (args : List Val) : M Val := do
  match ← execs P c f.body (f.params.zip (args ++ List.replicate (f.params.length - args.length) (.pv .none))) with
  | .ret v => return v
  | _ => return .pv .none

/-- The class with the given name. -/
def Program.class (P : Program) (name : String) : Option ClassDef := P.classes.find? fun d => d.name == name

/-- The method `m` of the class `cls`. -/
def Program.method (P : Program) (cls m : String) : Option Function := (P.class cls).bind fun d => d.methods.lookup m

/-- The property `x` of the class `cls`. -/
def Program.property (P : Program) (cls x : String) : Option Function := (P.class cls).bind fun d => d.properties.lookup x

/-- If a constructor raises, the objects that it has made are lost: nothing refers to them. -/
def discard {α : Type} (m : M α) : M α := fun σ =>
  match m σ with
  | .ok a σ' => .ok a σ'
  | .raise e σ' => .raise e ⟨σ'.heap.take σ.heap.length, σ'.streams⟩

/-- Calls. The number bounds their nesting (`diverge` if it is too small). -/
def calls (P : Program) : Nat → Calls
  | 0 => ⟨fun _ _ => raise .diverge, fun _ _ _ => raise .diverge, fun _ _ => raise .diverge⟩
  | n + 1 =>
    { construct := fun cls args => discard do
        match P.method cls "__init__" with
        | some f => do
          let r ← alloc cls
          let _ ← f.call P (calls P n) (.obj r :: args)
          return .obj r
        | none => raise .attribute
      method := fun r m args => do
        match P.method (← fetch r).cls m with
        | some f => f.call P (calls P n) (.obj r :: args)
        | none => raise .attribute
      property := fun r x => do
        match P.property (← fetch r).cls x with
        | some f => f.call P (calls P n) [.obj r]
        | none => raise .attribute }

/-- `X.from_bytes(b)`: the object in the memory, or the exception. -/
def fromBytes (P : Program) (n : Nat) (cls : String) (b : Bytes) : Out Val :=
  ((calls P n).construct cls [.io 0]).run ⟨[], [Stream.new b]⟩

end Dmr.Py
