import Verif.Py.Semantics
/-
The semantics of Verif/Py/Semantics once more, with a counter: every expression that is evaluated and every statement that is executed
takes one step. (What the primitives of the streams, operators and builtins do inside is not counted.)
-/

set_option autoImplicit false

namespace Dmr.Py.Time

/-- A piece of a program: the number of steps it takes, and what it leads to. -/
def T (α : Type) : Type := State → Nat × Out α

instance : Monad T where
  pure a := fun σ => (0, .ok a σ)
  bind m f := fun σ =>
    match m σ with
    | (t, .ok a σ') => (t + (f a σ').1, (f a σ').2)
    | (t, .raise e σ') => (t, .raise e σ')

/-- Running it. -/
def T.run {α : Type} (m : T α) (σ : State) : Nat × Out α := m σ

/-- Without the counter. -/
def T.result {α : Type} (m : T α) : M α := fun σ => (m σ).2

/-- A step. -/
def tick : T Unit := fun σ => (1, .ok () σ)

/-- Something that is not counted. -/
def free {α : Type} (m : M α) : T α := fun σ => (0, m σ)

/-- Calls, with their steps. -/
structure Calls where
  construct : String → List Val → T Val
  method : Nat → String → List Val → T Val
  property : Nat → String → T Val

/-- `getattr` with steps. -/
def getattr (c : Calls) : Val → String → T Val
  | .obj r, x => do
    match (← free (fetch r)).attrs.lookup x with
    | some v => return v
    | none => c.property r x
  | .pv (.enum _ v), "value" => return .pv (.int (Int.ofNat v))
  | _, _ => free (raise .attribute)

/-- `invoke` with steps. -/
def invoke (c : Calls) : Val → String → List Val → T Val
  | .obj r, m, args => c.method r m args
  | .io k, m, args => free (ioMethod k m args)
  | .pv (.bytes b), "decode", [.pv (.str e)] =>
    match codec (String.ofList e) with
    | some f =>
      match f b with
      | some s => return .pv (.str s)
      | none => free (raise .unicode)
    | none => free (raise .attribute)
  | _, _, _ => free (raise .attribute)

mutual
/-- `eval` with steps. -/
def eval (P : Program) (c : Calls) (env : Env) : Expr → T Val
  | .none => do tick; return .pv .none
  | .bool b => do tick; return .pv (.bool b)
  | .int n => do tick; return .pv (.int n)
  | .str s => do tick; return .pv (.str s.toList)
  | .bytes b => do tick; return .pv (.bytes b)
  | .emptyList => do tick; return .list []
  | .name x => do
    tick
    match env.lookup x with
    | some v => return v
    | none => free (raise .attribute)
  | .global _ | .cls _ | .enum _ => do tick; free (raise .attribute)
  | .attr (.enum e) m => do
    tick
    match P.enums.find? (fun d => d.qualified == e) with
    | some d =>
      match d.members.lookup m with
      | some v => return .pv (.enum d.name v)
      | none => free (raise .attribute)
    | none => free (raise .attribute)
  | .attr e x => do
    tick
    getattr c (← eval P c env e) x
  | .call (.cls n) args => do
    tick
    c.construct n (← evals P c env args)
  | .call (.global g) args => do
    tick
    free (builtin g (← evals P c env args))
  | .call (.attr (.global "KaitaiStream") "resolve_enum") [.enum e, x] => do
    tick
    match P.enums.find? (fun d => d.qualified == e), ← eval P c env x with
    | some d, .pv (.int (.ofNat v)) => return .pv (d.resolve v)
    | _, _ => free (raise .attribute)
  | .call (.attr e m) args => do
    tick
    let v ← eval P c env e
    invoke c v m (← evals P c env args)
  | .call _ _ => do tick; free (raise .attribute)
  | .bin op a b => do
    tick
    let x ← eval P c env a
    free (op.apply x (← eval P c env b))
  | .cmp op a b => do
    tick
    let x ← eval P c env a
    free (op.apply x (← eval P c env b))
  | .not e => do
    tick
    return .pv (.bool (!truthy (← eval P c env e)))
  | .and a b => do
    tick
    let x ← eval P c env a
    if truthy x then eval P c env b else return x
  | .or a b => do
    tick
    let x ← eval P c env a
    if truthy x then return x else eval P c env b
  | .ifExp t a b => do
    tick
    if truthy (← eval P c env t) then eval P c env a else eval P c env b
/-- `evals` with steps. -/
def evals (P : Program) (c : Calls) (env : Env) : List Expr → T (List Val)
  | [] => return []
  | e :: rest => do
    let v ← eval P c env e
    return v :: (← evals P c env rest)
end

/-- `forLoop` with steps. -/
def forLoop (body : Env → T Flow) (x : String) : List Val → Env → T Flow
  | [], env => return .next env
  | v :: rest, env => do
    match ← body (upsert x v env) with
    | .next env => forLoop body x rest env
    | .brk env => return .next env
    | .ret v => return .ret v

/-- `whileLoop` with steps. -/
def whileLoop (c : Env → T Bool) (body : Env → T Flow) : Nat → Env → T Flow
  | n, env => do
    if ← c env then
      match n with
      | 0 => free (raise .diverge)
      | n + 1 =>
        match ← body env with
        | .next env => whileLoop c body n env
        | .brk env => return .next env
        | .ret v => return .ret v
    else return .next env

mutual
/-- `exec` with steps. -/
def exec (P : Program) (c : Calls) : Stmt → Env → T Flow
  | .assign x e, env => do
    tick
    return .next (upsert x (← eval P c env e) env)
  | .setattr o x e, env => do
    tick
    let v ← eval P c env e
    match ← eval P c env o with
    | .obj r => do
      free (store r x v)
      return .next env
    | _ => free (raise .attribute)
  | .expr (.call (.attr (.attr o x) "append") [e]), env => do
    tick
    match ← eval P c env o with
    | .obj r => do
      match (← free (fetch r)).attrs.lookup x with
      | some (.list _) => do
        let v ← eval P c env e
        match (← free (fetch r)).attrs.lookup x with
        | some (.list l) => do
          free (store r x (.list (l ++ [v])))
          return .next env
        | _ => free (raise .attribute)
      | _ => free (raise .attribute)
    | _ => free (raise .attribute)
  | .expr e, env => do
    tick
    let _ ← eval P c env e
    return .next env
  | .if_ t a b, env => do
    tick
    if truthy (← eval P c env t) then execs P c a env else execs P c b env
  | .for_ x it body, env => do
    tick
    match ← eval P c env it with
    | .list l => forLoop (fun env => execs P c body env) x l env
    | _ => free (raise .attribute)
  | .while_ t body, env => do
    tick
    let n ← free (loopBound env)
    whileLoop (fun env => do return truthy (← eval P c env t)) (fun env => execs P c body env) n env
  | .break_, env => do tick; return .brk env
  | .pass_, env => do tick; return .next env
  | .raise_ (.call (.attr (.global "kaitaistruct") "ValidationNotEqualError") [a, b, d, .str place]), env => do
    tick
    let _ ← eval P c env a
    let _ ← eval P c env b
    let _ ← eval P c env d
    free (raise (.validation place))
  | .raise_ _, _ => do tick; free (raise .attribute)
  | .return_ e, env => do
    tick
    return .ret (← eval P c env e)
/-- `execs` with steps. -/
def execs (P : Program) (c : Calls) : List Stmt → Env → T Flow
  | [], env => return .next env
  | st :: rest, env => do
    match ← exec P c st env with
    | .next env => execs P c rest env
    | f => return f
end

/-- `Function.call` with steps. -/
def call (P : Program) (c : Calls) (f : Function) (args : List Val) : T Val := do
  match ← execs P c f.body (f.params.zip (args ++ List.replicate (f.params.length - args.length) (.pv .none))) with
  | .ret v => return v
  | _ => return .pv .none

/-- `discard` with steps. -/
def discard {α : Type} (m : T α) : T α := fun σ =>
  match m σ with
  | (t, .ok a σ') => (t, .ok a σ')
  | (t, .raise e σ') => (t, .raise e ⟨σ'.heap.take σ.heap.length, σ'.streams⟩)

/-- `calls` with steps. -/
def calls (P : Program) : Nat → Calls
  | 0 => ⟨fun _ _ => free (raise .diverge), fun _ _ _ => free (raise .diverge), fun _ _ => free (raise .diverge)⟩
  | n + 1 =>
    { construct := fun cls args => discard do
        match P.method cls "__init__" with
        | some f => do
          let r ← free (alloc cls)
          let _ ← call P (calls P n) f (.obj r :: args)
          return .obj r
        | none => free (raise .attribute)
      method := fun r m args => do
        match P.method (← free (fetch r)).cls m with
        | some f => call P (calls P n) f (.obj r :: args)
        | none => free (raise .attribute)
      property := fun r x => do
        match P.property (← free (fetch r)).cls x with
        | some f => call P (calls P n) f [.obj r]
        | none => free (raise .attribute) }

/-- `X.from_bytes(b)` with steps. -/
def fromBytes (P : Program) (n : Nat) (cls : String) (b : Bytes) : Nat × Out Val :=
  ((calls P n).construct cls [.io 0]).run ⟨[], [Stream.new b]⟩

end Dmr.Py.Time
