import Verif.Py.Semantics
/-
The semantics of Verif/Py/Semantics once more, in single steps, so that several threads can take turns. A thread is what it has come to, or
the next thing that it will do to the memory that it shares with the others, and how it goes on after that. What does not touch that memory
(operators, local variables) takes no time: nobody else can see it.
-/

set_option autoImplicit false

namespace Dmr.Py.Threads

/-- A thread. -/
inductive R (α : Type) where
  /-- it has returned -/
  | done (a : α)
  /-- it has raised an exception -/
  | raise (e : PyErr)
  /-- it looks at the object `r` -/
  | fetch (r : Nat) (k : Obj → R α)
  /-- it sets the attribute `x` of the object `r` -/
  | store (r : Nat) (x : String) (v : Val) (k : R α)
  /-- it makes a new object -/
  | alloc (cls : String) (k : Nat → R α)
  /-- it makes a new stream -/
  | stream (b : Bytes) (k : Nat → R α)
  /-- it uses a method of the stream `n` -/
  | io (n : Nat) (m : String) (args : List PyVal) (k : Val → R α)
  /-- it asks how many bytes the stream `n` has -/
  | size (n : Nat) (k : Nat → R α)

variable {α β : Type}

/-- `f` after it, unless it raises. -/
def R.bind : R α → (α → R β) → R β
  | .done a, f => f a
  | .raise e, _ => .raise e
  | .fetch r k, f => .fetch r fun o => (k o).bind f
  | .store r x v k, f => .store r x v (k.bind f)
  | .alloc c k, f => .alloc c fun n => (k n).bind f
  | .stream b k, f => .stream b fun n => (k n).bind f
  | .io n m a k, f => .io n m a fun v => (k v).bind f
  | .size n k, f => .size n fun l => (k l).bind f

instance : Monad R where
  pure := .done
  bind := R.bind

/-- The number of bytes of the stream `n`. -/
def lengthOf (n : Nat) : M Nat := fun σ =>
  match σ.streams[n]? with
  | some s => .ok s.buf.length σ
  | none => .raise .attribute σ

/-- How a thread goes on after something was done to the memory. -/
def R.next {β : Type} (k : β → R α) : Out β → R α × State
  | .ok b σ => (k b, σ)
  | .raise e σ => (.raise e, σ)

/-- The next step of a thread. -/
def R.step : R α → State → R α × State
  | .done a, σ => (.done a, σ)
  | .raise e, σ => (.raise e, σ)
  | .fetch r k, σ => R.next k ((Py.fetch r).run σ)
  | .store r x v k, σ => R.next (fun _ => k) ((Py.store r x v).run σ)
  | .alloc c k, σ => R.next k ((Py.alloc c).run σ)
  | .stream b k, σ => R.next k ((Py.open_ b).run σ)
  | .io n m a k, σ => R.next k ((ioMethod n m (a.map .pv)).run σ)
  | .size n k, σ => R.next k ((lengthOf n).run σ)

/-- The thread alone, to its end. -/
def R.run : R α → State → Out α
  | .done a, σ => .ok a σ
  | .raise e, σ => .raise e σ
  | .fetch r k, σ => ((Py.fetch r).run σ).bind fun o σ => (k o).run σ
  | .store r x v k, σ => ((Py.store r x v).run σ).bind fun _ σ => k.run σ
  | .alloc c k, σ => ((Py.alloc c).run σ).bind fun n σ => (k n).run σ
  | .stream b k, σ => ((Py.open_ b).run σ).bind fun n σ => (k n).run σ
  | .io n m a k, σ => ((ioMethod n m (a.map .pv)).run σ).bind fun v σ => (k v).run σ
  | .size n k, σ => ((lengthOf n).run σ).bind fun l σ => (k l).run σ

/-- One step each. -/
def R.get (r : Nat) : R Obj := .fetch r .done
def R.put (r : Nat) (x : String) (v : Val) : R Unit := .store r x v (.done ())
def R.new (cls : String) : R Nat := .alloc cls .done
def R.open_ (b : Bytes) : R Nat := .stream b .done
def R.use (n : Nat) (m : String) (args : List PyVal) : R Val := .io n m args .done
def R.length (n : Nat) : R Nat := .size n .done

/-- What has nothing to do with the memory. -/
def still (m : M α) : R α :=
  match m.run ⟨[], []⟩ with
  | .ok a _ => .done a
  | .raise e _ => .raise e

/-- Calls, by steps. -/
structure Calls where
  construct : String → List Val → R Val
  method : Nat → String → List Val → R Val
  property : Nat → String → R Val

/-- `getattr`, by steps. -/
def getattr (c : Calls) : Val → String → R Val
  | .obj r, x => do
    match (← R.get r).attrs.lookup x with
    | some v => return v
    | none => c.property r x
  | .pv (.enum _ v), "value" => return .pv (.int (Int.ofNat v))
  | _, _ => R.raise .attribute

/-- `invoke`, by steps. -/
def invoke (c : Calls) : Val → String → List Val → R Val
  | .obj r, m, args => c.method r m args
  | .io k, m, [] => R.use k m []
  | .io k, m, [.pv a] => R.use k m [a]
  | .pv (.bytes b), "decode", [.pv (.str e)] =>
    match codec (String.ofList e) with
    | some f =>
      match f b with
      | some s => return .pv (.str s)
      | none => R.raise .unicode
    | none => R.raise .attribute
  | _, _, _ => R.raise .attribute

/-- `builtin`, by steps. -/
def builtin : String → List Val → R Val
  | "int", [.pv (.bool b)] => return .pv (.int b.toNat)
  | "int", [.pv (.int n)] => return .pv (.int n)
  | "str", [.pv (.int n)] => return .pv (.str (decimal n))
  | "range", [.pv (.int n)] => return .list ((List.range n.toNat).map fun (i : Nat) => .pv (.int i))
  | "BytesIO", [.pv (.bytes b)] => return .file b
  | "KaitaiStream", [.file b] => do return .io (← R.open_ b)
  | "hasattr", [.obj r, .pv (.str x)] => do return .pv (.bool ((← R.get r).attrs.lookup (String.ofList x)).isSome)
  | "getattr", [.obj r, .pv (.str x), d] => do return ((← R.get r).attrs.lookup (String.ofList x)).getD d
  | _, _ => R.raise .attribute

mutual
/-- `eval`, by steps. -/
def eval (P : Program) (c : Calls) (env : Env) : Expr → R Val
  | .none => do return .pv .none
  | .bool b => do return .pv (.bool b)
  | .int n => do return .pv (.int n)
  | .str s => do return .pv (.str s.toList)
  | .bytes b => do return .pv (.bytes b)
  | .emptyList => do return .list []
  | .name x => do
    match env.lookup x with
    | some v => return v
    | none => R.raise .attribute
  | .global _ | .cls _ | .enum _ => R.raise .attribute
  | .attr (.enum e) m => do
    match P.enums.find? (fun d => d.qualified == e) with
    | some d =>
      match d.members.lookup m with
      | some v => return .pv (.enum d.name v)
      | none => R.raise .attribute
    | none => R.raise .attribute
  | .attr e x => do
    getattr c (← eval P c env e) x
  | .call (.cls n) args => do
    c.construct n (← evals P c env args)
  | .call (.global g) args => do
    builtin g (← evals P c env args)
  | .call (.attr (.global "KaitaiStream") "resolve_enum") [.enum e, x] => do
    match P.enums.find? (fun d => d.qualified == e), ← eval P c env x with
    | some d, .pv (.int (.ofNat v)) => return .pv (d.resolve v)
    | _, _ => R.raise .attribute
  | .call (.attr e m) args => do
    let v ← eval P c env e
    invoke c v m (← evals P c env args)
  | .call _ _ => R.raise .attribute
  | .bin op a b => do
    let x ← eval P c env a
    still (op.apply x (← eval P c env b))
  | .cmp op a b => do
    let x ← eval P c env a
    still (op.apply x (← eval P c env b))
  | .not e => do
    return .pv (.bool (!truthy (← eval P c env e)))
  | .and a b => do
    let x ← eval P c env a
    if truthy x then eval P c env b else return x
  | .or a b => do
    let x ← eval P c env a
    if truthy x then return x else eval P c env b
  | .ifExp t a b => do
    if truthy (← eval P c env t) then eval P c env a else eval P c env b
/-- `evals`, by steps. -/
def evals (P : Program) (c : Calls) (env : Env) : List Expr → R (List Val)
  | [] => return []
  | e :: rest => do
    let v ← eval P c env e
    return v :: (← evals P c env rest)
end

/-- `loopBound`, by steps. -/
def loopBound (env : Env) : R Nat :=
  match env.lookup "self" with
  | some (.obj r) => do
    match (← R.get r).attrs.lookup "_io" with
    | some (.io k) => do return (← R.length k) + 2
    | _ => R.raise .attribute
  | _ => R.raise .attribute

/-- `forLoop`, by steps. -/
def forLoop (body : Env → R Flow) (x : String) : List Val → Env → R Flow
  | [], env => return .next env
  | v :: rest, env => do
    match ← body (upsert x v env) with
    | .next env => forLoop body x rest env
    | .brk env => return .next env
    | .ret v => return .ret v

/-- `whileLoop`, by steps. -/
def whileLoop (c : Env → R Bool) (body : Env → R Flow) : Nat → Env → R Flow
  | n, env => do
    if ← c env then
      match n with
      | 0 => R.raise .diverge
      | n + 1 =>
        match ← body env with
        | .next env => whileLoop c body n env
        | .brk env => return .next env
        | .ret v => return .ret v
    else return .next env

mutual
/-- `exec`, by steps. -/
def exec (P : Program) (c : Calls) : Stmt → Env → R Flow
  | .assign x e, env => do
    return .next (upsert x (← eval P c env e) env)
  | .setattr o x e, env => do
    let v ← eval P c env e
    match ← eval P c env o with
    | .obj r => do
      R.put r x v
      return .next env
    | _ => R.raise .attribute
  | .expr (.call (.attr (.attr o x) "append") [e]), env => do
    match ← eval P c env o with
    | .obj r => do
      match (← R.get r).attrs.lookup x with
      | some (.list _) => do
        let v ← eval P c env e
        match (← R.get r).attrs.lookup x with
        | some (.list l) => do
          R.put r x (.list (l ++ [v]))
          return .next env
        | _ => R.raise .attribute
      | _ => R.raise .attribute
    | _ => R.raise .attribute
  | .expr e, env => do
    let _ ← eval P c env e
    return .next env
  | .if_ t a b, env => do
    if truthy (← eval P c env t) then execs P c a env else execs P c b env
  | .for_ x it body, env => do
    match ← eval P c env it with
    | .list l => forLoop (fun env => execs P c body env) x l env
    | _ => R.raise .attribute
  | .while_ t body, env => do
    let n ← loopBound env
    whileLoop (fun env => do return truthy (← eval P c env t)) (fun env => execs P c body env) n env
  | .break_, env => do return .brk env
  | .pass_, env => do return .next env
  | .raise_ (.call (.attr (.global "kaitaistruct") "ValidationNotEqualError") [a, b, d, .str place]), env => do
    let _ ← eval P c env a
    let _ ← eval P c env b
    let _ ← eval P c env d
    R.raise (.validation place)
  | .raise_ _, _ => R.raise .attribute
  | .return_ e, env => do
    return .ret (← eval P c env e)
/-- `execs`, by steps. -/
def execs (P : Program) (c : Calls) : List Stmt → Env → R Flow
  | [], env => return .next env
  | st :: rest, env => do
    match ← exec P c st env with
    | .next env => execs P c rest env
    | f => return f
end

/-- `Function.call`, by steps. -/
def call (P : Program) (c : Calls) (f : Function) (args : List Val) : R Val := do
  match ← execs P c f.body (f.params.zip (args ++ List.replicate (f.params.length - args.length) (.pv .none))) with
  | .ret v => return v
  | _ => return .pv .none

/-- `calls`, by steps. -/
def calls (P : Program) : Nat → Calls
  | 0 => ⟨fun _ _ => R.raise .diverge, fun _ _ _ => R.raise .diverge, fun _ _ => R.raise .diverge⟩
  | n + 1 =>
    { construct := fun cls args => do
        match P.method cls "__init__" with
        | some f => do
          let r ← R.new cls
          let _ ← call P (calls P n) f (.obj r :: args)
          return .obj r
        | none => R.raise .attribute
      method := fun r m args => do
        match P.method (← R.get r).cls m with
        | some f => call P (calls P n) f (.obj r :: args)
        | none => R.raise .attribute
      property := fun r x => do
        match P.property (← R.get r).cls x with
        | some f => call P (calls P n) f [.obj r]
        | none => R.raise .attribute }

end Dmr.Py.Threads
