import Verif.Model.Tools.PyVal
/-
The part of the Kaitai Struct language that the schemas okdmr/kaitai/*/*.ksy use: its abstract syntax and its meaning
(https://doc.kaitai.io/user_guide.html; the compiler and its documentation are not in /repo).

A schema is data (Verif/Ksy/Schema.lean); `Ksy.parse` is the one function that interprets all of them. It shares the stream
primitives of Verif/Runtime.lean with the model of the Python decoders, and nothing else: fields are found by name, conditions,
sizes and cases are expressions evaluated over the fields parsed so far.
-/

namespace Dmr.Ksy

/-- `enums`: the Python name of the enumeration, and its members. -/
structure EnumDef where
  name : String
  members : List (Nat × String)

/-- Character encodings. -/
inductive Encoding where
  | ascii | utf8 | utf16le | utf16be

/-- Binary operators of the expression language. -/
inductive BinOp where
  | add | sub | shl | shr | band | eq | ne | ge | le | gt | lt | and | or

/-- Expressions. -/
inductive Expr where
  | int (n : Int)
  | str (s : PyStr)
  /-- `enum_name::member` -/
  | enum (e : EnumDef) (member : String)
  /-- an attribute or instance of the current object -/
  | field (name : String)
  /-- `_root.name` -/
  | root (name : String)
  /-- `_parent.name` -/
  | parent (name : String)
  /-- `e.name` -/
  | get (e : Expr) (name : String)
  /-- `_`, the element just parsed (in `repeat-until`) -/
  | item
  | ioEof
  | ioSize
  | ioPos
  | toI (e : Expr)
  | toS (e : Expr)
  | decode (e : Expr) (enc : Encoding)
  | not (e : Expr)
  | bin (op : BinOp) (a b : Expr)
  | cond (c a b : Expr)

/-- The numeric types. -/
inductive Prim where
  | u1 | u2be | u2le | u4be | u4le | s2be

/-- `repeat`. -/
inductive Repeat where
  | once
  | times (n : Expr)
  | until (stop : Expr)
  | eos

mutual
/-- What an attribute holds. -/
inductive Ty where
  | prim (p : Prim)
  | primEnum (p : Prim) (e : EnumDef)
  /-- `b1` without `enum` is a boolean -/
  | flag
  | bits (n : Nat)
  | bitsEnum (n : Nat) (e : EnumDef)
  | bytes (size : Expr)
  | bytesEos
  | str (size : Expr) (enc : Encoding)
  | strEos (enc : Encoding)
  /-- fixed `contents`; the string is the place in the schema, which the exception carries -/
  | contents (expected : Bytes) (place : String)
  | user (t : TypeDef)
  | switch (on : Expr) (cases : List (Expr × TypeDef)) (default : Option TypeDef)
  /-- `size` together with a type: a stream of its own over that many bytes -/
  | sized (size : Expr) (ty : Ty)
/-- An element of `seq`. `valid`: the required value and the place in the schema, which the exception carries. -/
structure Attr where
  id : String
  ty : Ty
  cond : Option Expr := none
  rep : Repeat := .once
  valid : Option (Expr × String) := none
/-- An element of `instances`: a computed value, or something parsed at a given position. -/
inductive Inst where
  | value (e : Expr)
  | at (pos : Expr) (ty : Ty) (cond : Option Expr)
/-- A type: the name of its Python class, `seq`, `instances`, and whether it is the type of a whole file. -/
structure TypeDef where
  name : String
  seq : List Attr
  instances : List (String × Inst)
  top : Bool
end

/-! ### Meaning of expressions -/

/-- An object being parsed: its type, and its attributes so far. -/
structure Frame where
  type : TypeDef
  attrs : List (String × PyVal)

/-- What an expression can refer to: the object, the object that contains it, and the outermost object of the file. -/
structure Scope where
  self : Frame
  parent : Frame
  root : Frame

/-- The enumeration value for a number: the member, or the number itself if there is none. -/
def EnumDef.resolve (e : EnumDef) (v : Nat) : PyVal :=
  if e.members.any (fun m => m.1 == v) then .enum e.name v else .int v

/-- `enum_name::member`. -/
def EnumDef.member (e : EnumDef) (name : String) : Rd PyVal :=
  match e.members.find? (fun m => m.2 == name) with
  | some m => pure (.enum e.name m.1)
  | none => Rd.throw .attribute

/-- Equality of numbers, booleans, texts and enumeration members. -/
def same : PyVal → PyVal → Bool
  | .int a, .int b => a == b
  | .bool a, .bool b => a == b
  | .str a, .str b => a == b
  | .bytes a, .bytes b => a == b
  | .enum c a, .enum d b => c == d && a == b
  | _, _ => false

/-- The operators, except `and` and `or`. -/
def BinOp.apply : BinOp → PyVal → PyVal → Rd PyVal
  | .add, .int a, .int b => pure (.int (a + b))
  | .add, .str a, .str b => pure (.str (a ++ b))
  | .sub, .int a, .int b => pure (.int (a - b))
  | .shl, .int a, .int b => pure (.int (a * 2 ^ b.toNat))
  | .shr, .int a, .int b => pure (.int (a / 2 ^ b.toNat))
  | .band, .int a, .int b => pure (.int (Int.ofNat (a.toNat &&& b.toNat)))
  | .eq, a, b => pure (.bool (same a b))
  | .ne, a, b => pure (.bool (!same a b))
  | .ge, .int a, .int b => pure (.bool (decide (a ≥ b)))
  | .le, .int a, .int b => pure (.bool (decide (a ≤ b)))
  | .gt, .int a, .int b => pure (.bool (decide (a > b)))
  | .lt, .int a, .int b => pure (.bool (decide (a < b)))
  | _, _, _ => Rd.throw .attribute

/-- The number as decimal text. -/
def decimal (n : Int) : PyStr := if n < 0 then '-' :: Nat.toDigits 10 (-n).toNat else Nat.toDigits 10 n.toNat

/-- `bytes` to text. -/
def Encoding.codec : Encoding → Bytes → Option PyStr
  | .ascii => decodeAscii
  | .utf8 => decodeUtf8
  | .utf16le => decodeUtf16le
  | .utf16be => decodeUtf16be

/-- The value must be a boolean. -/
def asBool : PyVal → Rd Bool
  | .bool b => pure b
  | _ => Rd.throw .attribute

/-- The value must be a number. -/
def asInt : PyVal → Rd Int
  | .int i => pure i
  | _ => Rd.throw .attribute

/-- An attribute of an object; if it has no such attribute, its instance of that name. -/
def look (inst : Frame → Frame → String → Rd PyVal) (fr root : Frame) (name : String) : Rd PyVal :=
  match fr.attrs.lookup name with
  | some v => pure v
  | none => inst fr root name

/-- An attribute of a value: `AttributeError` if it is not an object, or an object that has none of that name. -/
def getAttr : PyVal → String → Rd PyVal
  | .struct _ attrs, name =>
    match attrs.lookup name with
    | some v => pure v
    | none => Rd.throw .attribute
  | _, _ => Rd.throw .attribute

/-- The value of an expression. `inst` computes instances. `to_i` of a number that is not a member of its enumeration is an
AttributeError, as in every Python program made by the compiler. -/
def eval (inst : Frame → Frame → String → Rd PyVal) (sc : Scope) (item : PyVal) : Expr → Rd PyVal
  | .int n => pure (.int n)
  | .str s => pure (.str s)
  | .enum e m => e.member m
  | .field name => look inst sc.self sc.root name
  | .root name => look inst sc.root sc.root name
  | .parent name => look inst sc.parent sc.root name
  | .get e name => do getAttr (← eval inst sc item e) name
  | .item => pure item
  | .ioEof => do return .bool (← isEof)
  | .ioSize => do return .int (Int.ofNat (← sizeIo))
  | .ioPos => do return .int (Int.ofNat (← posIo))
  | .toI e => do
    match ← eval inst sc item e with
    | .enum _ v => pure (.int (Int.ofNat v))
    | .bool b => pure (.int (Int.ofNat b.toNat))
    | _ => Rd.throw .attribute
  | .toS e => do return .str (decimal (← asInt (← eval inst sc item e)))
  | .decode e enc => do
    match ← eval inst sc item e with
    | .bytes b =>
      match enc.codec b with
      | some s => pure (.str s)
      | none => Rd.throw .unicode
    | _ => Rd.throw .attribute
  | .not e => do return .bool (!(← asBool (← eval inst sc item e)))
  | .bin .and a b => do
    if ← asBool (← eval inst sc item a) then eval inst sc item b else return .bool false
  | .bin .or a b => do
    if ← asBool (← eval inst sc item a) then return .bool true else eval inst sc item b
  | .bin op a b => do op.apply (← eval inst sc item a) (← eval inst sc item b)
  | .cond c a b => do
    if ← asBool (← eval inst sc item c) then eval inst sc item a else eval inst sc item b

/-! ### Meaning of types -/

/-- Reading a number. -/
def Prim.read : Prim → Rd Int
  | .u1 => Int.ofNat <$> readU1
  | .u2be => Int.ofNat <$> readU2be
  | .u2le => Int.ofNat <$> readU2le
  | .u4be => Int.ofNat <$> readU4be
  | .u4le => Int.ofNat <$> readU4le
  | .s2be => readS2be

/-- The type chosen by `switch-on`: the first case whose value is that of the expression. -/
def choose (ev : Expr → Rd PyVal) (on : PyVal) (default : Option TypeDef) : List (Expr × TypeDef) → Rd (Option TypeDef)
  | [] => pure default
  | (e, t) :: rest => do
    if same on (← ev e) then return some t else choose ev on default rest

/-- Whether the type is made of bits: everything else begins at the next whole byte. -/
def Ty.isBits : Ty → Bool
  | .flag | .bits _ | .bitsEnum _ _ => true
  | _ => false

/-- Parsing a value of a type, in the same stream; nothing if no case of a `switch` applies. -/
def readHere (ev : Expr → Rd PyVal) (sub : TypeDef → Rd PyVal) : Ty → Rd (Option PyVal)
  | .prim p => do return some (.int (← p.read))
  | .primEnum p e => do return some (e.resolve (← p.read).toNat)
  | .flag => do return some (.bool (← readFlag))
  | .bits n => do return some (.int (Int.ofNat (← readBitsIntBe n)))
  | .bitsEnum n e => do return some (e.resolve (← readBitsIntBe n))
  | .bytes size => do return some (.bytes (← readBytesInt (← asInt (← ev size))))
  | .bytesEos => do return some (.bytes (← readBytesFull))
  | .str size enc => do
    let n ← asInt (← ev size)
    return some (.str (← decodeWith enc.codec (readBytesInt n)))
  | .strEos enc => do return some (.str (← decodeWith enc.codec readBytesFull))
  | .contents expected place => do
    let b ← readBytes expected.length
    validateEq b expected place
    return some (.bytes b)
  | .user t => do return some (← sub t)
  | .switch on cases default => do
    let v ← ev on
    match ← choose ev v default cases with
    | some t => return some (← sub t)
    | none => return none
  | .sized _ _ => Rd.throw .attribute

/-- Parsing a value of a type. With `size` the bytes are fetched first, and parsed in a stream of their own. -/
def readTy (ev : Expr → Rd PyVal) (sub : TypeDef → Rd PyVal) : Ty → Rd (Option PyVal)
  | .sized size ty => do
    let raw ← readBytesInt (← asInt (← ev size))
    fun s => ((readHere ev sub ty (Stream.new raw)).1, s)
  | ty => readHere ev sub ty

/-- The value of a type that always has one. -/
def always (r : Rd (Option PyVal)) : Rd PyVal := do
  match ← r with
  | some v => pure v
  | none => Rd.throw .attribute

/-- `repeat`. -/
def repeated (ev : PyVal → Expr → Rd PyVal) (r : Rd (Option PyVal)) : Repeat → Rd (Option PyVal)
  | .once => r
  | .times n => do
    let k ← asInt (← ev .none n)
    return some (.list (← repeatN k.toNat (always r)))
  | .until stop => do
    let fuel ← loopFuel
    return some (.list (← repeatUntil fuel (always r) (fun x => do asBool (← ev x stop))))
  | .eos => do
    let fuel ← loopFuel
    return some (.list (← repeatEos fuel (always r)))

/-- An optional condition. -/
def holds (ev : PyVal → Expr → Rd PyVal) : Option Expr → Rd Bool
  | none => pure true
  | some e => do asBool (← ev .none e)

/-- One element of `seq`: nothing if its condition does not hold. -/
def Attr.read (ev : PyVal → Expr → Rd PyVal) (sub : TypeDef → Rd PyVal) (a : Attr) : Rd (Option PyVal) := do
  if ← holds ev a.cond then
    let o ← repeated ev (readTy (ev .none) sub a.ty) a.rep
    match a.valid, o with
    | some (e, place), some v =>
      if same v (← ev .none e) then return o else Rd.throw (.validation place)
    | _, _ => return o
  else return none

/-- To the next whole byte, if the condition holds. -/
def alignIf (c : Bool) : Rd Unit := if c then alignToByte else pure ()

/-- The elements of `seq`, in order: `read acc a` parses the element `a` after the attributes `acc`; `bits` says whether the
last one was made of bits. -/
def parseSeq (read : List (String × PyVal) → Attr → Rd (Option PyVal)) :
    Bool → List (String × PyVal) → List Attr → Rd (List (String × PyVal))
  | _, acc, [] => pure acc
  | bits, acc, a :: rest => do
    alignIf (bits && !a.ty.isBits)
    let o ← read acc a
    parseSeq read a.ty.isBits (acc ++ PyVal.optAttr a.id o) rest

mutual
/-- The value of the instance `name` of the object `fr`: if it is parsed, at its position, and the position of the stream is
restored. -/
def inst : Nat → Frame → Frame → String → Rd PyVal
  | 0, _, _, _ => Rd.throw .diverge
  | n + 1, fr, root, name => do
    match fr.type.instances.lookup name with
    | none => Rd.throw .attribute
    | some (.value e) => eval (inst n) ⟨fr, fr, root⟩ .none e
    | some (.at p ty c) =>
      let sc : Scope := ⟨fr, fr, root⟩
      if ← holds (eval (inst n) sc) c then
        let pos ← posIo
        let at_ ← asInt (← eval (inst n) sc .none p)
        seekIo at_.toNat
        let v ← always (readTy (eval (inst n) sc .none) (parse n sc) ty)
        seekIo pos
        return v
      else return .none
/-- Parsing an object of type `t` that is part of the object `outer.self`. The number bounds the nesting (`diverge` if it is too
small). -/
def parse : Nat → Scope → TypeDef → Rd PyVal
  | 0, _, _ => Rd.throw .diverge
  | n + 1, outer, t => do
    let attrs ← parseSeq (fun acc a =>
      let self : Frame := ⟨t, acc⟩
      let sc : Scope := ⟨self, outer.self, if t.top then self else outer.root⟩
      a.read (eval (inst n) sc) (parse n sc)) false [] t.seq
    return .struct t.name attrs
end

end Dmr.Ksy
