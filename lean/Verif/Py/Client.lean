import Verif.Props.SourceShared
import Verif.Props.SourceThreads
/-
Programs that use the library, and may hand over to each other what they have got (the users of Verif/Props/SourceClients). They work at the
same time; the steps are those of Verif/Py/Threads.
-/

set_option autoImplicit false

namespace Dmr.Py

open Threads (R)

/-- What a program can look at, of a value: everything but the addresses. -/
inductive Seen where
  | plain (v : PyVal)
  | file (b : Bytes)
  | object
  | stream
  | list (l : List Seen)

mutual
/-- The value as it is seen. -/
def Val.seen : Val → Seen
  | .pv v => .plain v
  | .file b => .file b
  | .obj _ => .object
  | .io _ => .stream
  | .list l => .list (seenAll l)
/-- Item by item. -/
def seenAll : List Val → List Seen
  | [] => []
  | v :: l => v.seen :: seenAll l
end

/-- What a client asks for. -/
inductive Request (ι : Type) where
  /-- `cls.from_bytes(b)` -/
  | decode (cls : String) (b : Bytes)
  /-- `getattr(x, p)`, where `x` is the answer number `k` that it has got -/
  | get (k : Nat) (p : String)
  /-- `x[i]`, for the list `x` -/
  | item (k i : Nat)
  /-- `type(x).__name__`, for the object `x` -/
  | type (k : Nat)
  /-- the answer number `k` that the client `j` has got -/
  | borrow (j : ι) (k : Nat)

/-- A value, or an exception. -/
abbrev Answer : Type := Except PyErr Val

/-- The answer as it is seen. -/
def Answer.seen (a : Answer) : Except PyErr Seen := a.map Val.seen

/-- The program of a client: what it asks for next, depending on all that it has seen; or nothing more. -/
abbrev Program' (ι : Type) : Type := List (Except PyErr Seen) → Option (Request ι)

/-- A client: the answers that it has got, and what it is doing. -/
structure Client where
  got : List Answer
  now : Option (R Val)

/-- What it has seen. -/
def Client.seen (c : Client) : List (Except PyErr Seen) := c.got.map Answer.seen

/-- A client that has not done anything. -/
def Client.fresh : Client := ⟨[], none⟩

variable {ι : Type}

/-- The answer is already there. -/
def Answer.ready : Answer → R Val
  | .ok v => .done v
  | .error e => .raise e

/-- How the request is begun, by the client `i`, if all the clients have got `all`. What is not there is an exception too. -/
def Request.begin (n : Nat) (all : ι → List Answer) (i : ι) : Request ι → R Val
  | .decode cls b => (decoding cls b).thread n
  | .get k p =>
    match (all i)[k]? with
    | some (.ok v) => Threads.getattr (Threads.calls library n) v p
    | _ => .raise .attribute
  | .item k m =>
    match (all i)[k]? with
    | some (.ok (.list l)) =>
      match l[m]? with
      | some v => .done v
      | none => .raise .attribute
    | _ => .raise .attribute
  | .type k =>
    match (all i)[k]? with
    | some (.ok (.obj r)) => .fetch r fun o => .done (.pv (.str o.cls.toList))
    | _ => .raise .attribute
  | .borrow j k =>
    match (all j)[k]? with
    | some a => a.ready
    | none => .raise .attribute

/-- Clients and the memory that they share. -/
structure Clients (ι : Type) where
  clients : ι → Client
  memory : State

variable [DecidableEq ι]

/-- The client `i` becomes `c`. -/
def Clients.set (w : Clients ι) (i : ι) (c : Client) (σ : State) : Clients ι := ⟨fun j => if j = i then c else w.clients j, σ⟩

/-- The client `i` takes a step: it begins the next request, or goes on with it, or notes the answer. -/
def Clients.step (n : Nat) (programs : ι → Program' ι) (w : Clients ι) (i : ι) : Clients ι :=
  match (w.clients i).now with
  | none =>
    match programs i (w.clients i).seen with
    | none => w
    | some r => w.set i ⟨(w.clients i).got, some (r.begin n (fun j => (w.clients j).got) i)⟩ w.memory
  | some q =>
    match q.result with
    | some a => w.set i ⟨(w.clients i).got ++ [a], none⟩ w.memory
    | none => w.set i ⟨(w.clients i).got, some (q.step w.memory).1⟩ (q.step w.memory).2

/-- They take steps in the given order. -/
def Clients.run (n : Nat) (programs : ι → Program' ι) (w : Clients ι) (turns : List ι) : Clients ι := turns.foldl (Clients.step n programs) w

/-- Nobody has done anything, and this is the memory. -/
def Clients.fresh (old : State) : Clients ι := ⟨fun _ => .fresh, old⟩

end Dmr.Py
