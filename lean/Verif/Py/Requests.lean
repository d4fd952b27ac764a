import Verif.Py.Threads
/-
What a program asks of the streams. If every `read_bytes(n)` in a program has an argument that is small by its form (a number that was read
as one or two octets, the size of the stream less something, …), then it asks for few bytes whatever the streams contain.
-/

set_option autoImplicit false

namespace Dmr.Py.Requests

open Threads

/-- At most two octets. -/
def Small (v : Val) : Prop := ∀ i, v = .pv (.int i) → 0 ≤ i ∧ i ≤ 65535
/-- Not negative. -/
def Nonneg (v : Val) : Prop := ∀ i, v = .pv (.int i) → 0 ≤ i
/-- At most two octets, or `L`. -/
def Upto (L : Nat) (v : Val) : Prop := ∀ i, v = .pv (.int i) → i ≤ max 65535 L
/-- At most `L` bytes. -/
def Raw (L : Nat) (v : Val) : Prop := ∀ b, v = .pv (.bytes b) → b.length ≤ L
/-- A `BytesIO` of at most `L` bytes. -/
def Filed (L : Nat) (v : Val) : Prop := ∀ b, v = .file b → b.length ≤ L

/-- The attributes and properties that are small, not negative, and short byte strings. -/
structure Attrs where
  small : List String
  nonneg : List String
  raw : List String

/-- What is known about the value of the attribute `x`. -/
structure Fact (A : Attrs) (L : Nat) (x : String) (v : Val) : Prop where
  small : x ∈ A.small → Small v
  nonneg : x ∈ A.nonneg → Nonneg v
  raw : x ∈ A.raw → Raw L v

/-- Whether the call is small by its form. -/
def callSmall (A : Attrs) : Expr → List Expr → Bool
  | .attr _ m, [] => decide (m ∈ ["read_u1", "read_u2be", "read_u2le"])
  | .global g, [_, .str x, .none] => decide (g = "getattr") && decide (x ∈ A.small)
  | _, _ => false

/-- Whether the value of an expression is small by its form. -/
def small (A : Attrs) : Expr → Bool
  | .int n => decide (0 ≤ n) && decide (n ≤ 65535)
  | .attr _ x => decide (x ∈ A.small)
  | .call f args => callSmall A f args
  | .ifExp _ a b => small A a && small A b
  | _ => false

/-- Whether the call is not negative by its form. -/
def callNonneg (A : Attrs) : Expr → List Expr → Bool
  | .attr _ m, [] => decide (m ∈ ["read_u1", "read_u2be", "read_u2le", "pos", "size"])
  | .global g, [_, .str x, .none] => decide (g = "getattr") && decide (x ∈ A.nonneg)
  | _, _ => false

/-- Whether the value of an expression is not negative by its form. -/
def nonneg (A : Attrs) : Expr → Bool
  | .int n => decide (0 ≤ n)
  | .attr _ x => decide (x ∈ A.nonneg)
  | .call f args => callNonneg A f args
  | .bin .add a b => nonneg A a && nonneg A b
  | .ifExp _ a b => nonneg A a && nonneg A b
  | _ => false

/-- Whether the call is the size of a stream. -/
def callSize : Expr → List Expr → Bool
  | .attr _ m, [] => decide (m = "size")
  | _, _ => false

/-- Whether the value of an expression is by its form small, or the size of a stream, or less. -/
def upto (A : Attrs) : Expr → Bool
  | .call f args => callSize f args || callSmall A f args
  | .bin .sub a b => upto A a && nonneg A b
  | e => small A e

/-- Whether the call reads bytes. -/
def callRaw : Expr → Bool
  | .attr _ m => decide (m = "read_bytes")
  | _ => false

/-- Whether the value of an expression is a short byte string by its form. -/
def raw (A : Attrs) : Expr → Bool
  | .attr _ x => decide (x ∈ A.raw)
  | .call f _ => callRaw f
  | _ => false

/-- Whether the value of an expression is a short `BytesIO` by its form. -/
def filed (A : Attrs) : Expr → Bool
  | .call (.global g) [e] => decide (g = "BytesIO") && raw A e
  | _ => false

/-- Whether what the method `m` of a stream is called with is small by its form. -/
def callFits (A : Attrs) (m : String) (args : List Expr) : Bool :=
  (decide (m ≠ "read_bytes") || match args with | [e] => upto A e | _ => false) &&
  (decide (m ≠ "read_bits_int_be") || match args with | [.int n] => decide (n ≤ 64) | _ => false)

/-- Whether what a builtin is called with is short by its form. -/
def builtinFits (A : Attrs) (g : String) (args : List Expr) : Bool :=
  decide (g ≠ "KaitaiStream") || match args with | [e] => filed A e | _ => false

mutual
/-- Whether everything that is asked of a stream in the expression is small by its form. -/
def fits (A : Attrs) : Expr → Bool
  | .none | .bool _ | .int _ | .str _ | .bytes _ | .emptyList | .name _ | .global _ | .cls _ | .enum _ => true
  | .attr e _ => fits A e
  | .call (.attr e m) args => fits A e && allFit A args && callFits A m args
  | .call (.global g) args => allFit A args && builtinFits A g args
  | .call _ args => allFit A args
  | .bin _ a b | .cmp _ a b | .and a b | .or a b => fits A a && fits A b
  | .not a => fits A a
  | .ifExp t a b => fits A t && fits A a && fits A b
/-- … in all expressions. -/
def allFit (A : Attrs) : List Expr → Bool
  | [] => true
  | e :: rest => fits A e && allFit A rest
end

/-- Whether the expression may be the value of the attribute `x`. -/
def suits (A : Attrs) (x : String) (e : Expr) : Bool :=
  (!decide (x ∈ A.small) || small A e) && (!decide (x ∈ A.nonneg) || nonneg A e) && (!decide (x ∈ A.raw) || raw A e)

mutual
/-- Whether everything that is asked in the statement is small by its form, and it assigns to the attributes and (in a property `x`) returns what suits. -/
def stmtFits (A : Attrs) (x : String) : Stmt → Bool
  | .assign _ e | .expr e | .raise_ e => fits A e
  | .return_ e => fits A e && suits A x e
  | .setattr o y e => fits A o && fits A e && suits A y e
  | .if_ t a b => fits A t && stmtsFit A x a && stmtsFit A x b
  | .for_ _ it body => fits A it && stmtsFit A x body
  | .while_ t body => fits A t && stmtsFit A x body
  | .break_ | .pass_ => true
/-- … in all statements. -/
def stmtsFit (A : Attrs) (x : String) : List Stmt → Bool
  | [] => true
  | st :: rest => stmtFits A x st && stmtsFit A x rest
end

/-- The methods of streams that give numbers and bytes. -/
def reading : List String := ["read_u1", "read_u2be", "read_u2le", "pos", "size", "read_bytes"]

/-- Whether all functions of the class do. No method has the name of one of the streams. -/
def classFits (A : Attrs) (d : ClassDef) : Bool :=
  d.methods.all (fun m => stmtsFit A "" m.2.body && decide (m.1 ∉ reading)) && d.properties.all (fun p => stmtsFit A p.1 p.2.body)

/-! ### What it means -/

/-- A request that is small. -/
def Polite (L : Nat) (m : String) (a : List PyVal) : Prop :=
  (m = "read_bytes" → ∀ i, a = [.int i] → i ≤ max 65535 L) ∧ (m = "read_bits_int_be" → ∀ i, a = [.int i] → i ≤ 64)

/-- What a stream may answer. -/
structure Answer (L : Nat) (m : String) (v : Val) : Prop where
  small : m ∈ ["read_u1", "read_u2be", "read_u2le"] → Small v
  nonneg : m = "pos" ∨ m = "size" → Nonneg v
  size : m = "size" → Upto L v
  raw : Raw L v

/-- The objects that there may be. -/
def Fine (A : Attrs) (L : Nat) (o : Obj) : Prop := ∀ x v, o.attrs.lookup x = some v → Fact A L x v

variable {α β : Type}

/-- The thread asks for nothing large and stores what suits, if the others do, and what it returns has the property `Q`. -/
def Sure (A : Attrs) (L : Nat) (Q : α → Prop) : R α → Prop
  | .done a => Q a
  | .raise _ => True
  | .fetch _ k => ∀ o, Fine A L o → Sure A L Q (k o)
  | .store _ x v k => Fact A L x v ∧ Sure A L Q k
  | .alloc _ k => ∀ n, Sure A L Q (k n)
  | .stream b k => b.length ≤ L ∧ ∀ n, Sure A L Q (k n)
  | .io _ m a k => Polite L m a ∧ ∀ v, Answer L m v → Sure A L Q (k v)
  | .size _ k => ∀ l, Sure A L Q (k l)

theorem sure_bind {A : Attrs} {L : Nat} {Q : α → Prop} {S : β → Prop} {p : R α} {f : α → R β} (hp : Sure A L Q p)
    (hf : ∀ a, Q a → Sure A L S (f a)) : Sure A L S (p >>= f) := by
  show Sure A L S (p.bind f)
  induction p with
  | done a => exact hf a hp
  | raise e => exact trivial
  | fetch r k ih => exact fun o ho => ih o (hp o ho)
  | store r x v k ih => exact ⟨hp.1, ih hp.2⟩
  | alloc c k ih => exact fun n => ih n (hp n)
  | stream b k ih => exact ⟨hp.1, fun n => ih n (hp.2 n)⟩
  | io n m a k ih => exact ⟨hp.1, fun v hv => ih v (hp.2 v hv)⟩
  | size n k ih => exact fun l => ih l (hp l)

theorem Sure.mono {A : Attrs} {L : Nat} {Q S : α → Prop} {p : R α} (hp : Sure A L Q p) (h : ∀ a, Q a → S a) : Sure A L S p := by
  induction p with
  | done a => exact h a hp
  | raise e => exact trivial
  | fetch r k ih => exact fun o ho => ih o (hp o ho)
  | store r x v k ih => exact ⟨hp.1, ih hp.2⟩
  | alloc c k ih => exact fun n => ih n (hp n)
  | stream b k ih => exact ⟨hp.1, fun n => ih n (hp.2 n)⟩
  | io n m a k ih => exact ⟨hp.1, fun v hv => ih v (hp.2 v hv)⟩
  | size n k ih => exact fun l => ih l (hp l)

theorem sure_pure {A : Attrs} {L : Nat} {Q : α → Prop} {a : α} (h : Q a) : Sure A L Q (pure a : R α) := h

theorem Small.nonneg {v : Val} (h : Small v) : Nonneg v := fun i hi => (h i hi).1
theorem Small.upto {L : Nat} {v : Val} (h : Small v) : Upto L v := fun i hi => by have := (h i hi).2; omega

/-- Not a number, nor bytes. -/
def Plain (v : Val) : Prop := (∀ i, v ≠ .pv (.int i)) ∧ (∀ b, v ≠ .pv (.bytes b)) ∧ ∀ b, v ≠ .file b

theorem Plain.fact {A : Attrs} {L : Nat} {x : String} {v : Val} (h : Plain v) : Fact A L x v :=
  ⟨fun _ i e => absurd e (h.1 i), fun _ i e => absurd e (h.1 i), fun _ b e => absurd e (h.2.1 b)⟩

end Dmr.Py.Requests
