import Verif.Py.RequestsRun
/-
C77: no packet makes a decoder ask for much at once.
-/

set_option autoImplicit false
set_option linter.unusedSectionVars false

namespace Dmr.Py

open Threads (R)

/-- All that a thread that runs alone asks of streams: the methods, and what they are called with, in this order. -/
def asks {α : Type} : R α → State → List (String × List PyVal)
  | .done _, _ => []
  | .raise _, _ => []
  | .fetch r k, σ =>
    match (fetch r).run σ with
    | .ok o τ => asks (k o) τ
    | .raise _ _ => []
  | .store r x v k, σ =>
    match (store r x v).run σ with
    | .ok _ τ => asks k τ
    | .raise _ _ => []
  | .alloc c k, σ =>
    match (alloc c).run σ with
    | .ok q τ => asks (k q) τ
    | .raise _ _ => []
  | .stream b k, σ =>
    match (open_ b).run σ with
    | .ok q τ => asks (k q) τ
    | .raise _ _ => []
  | .io q m a k, σ =>
    (m, a) ::
      match (ioMethod q m (a.map .pv)).run σ with
      | .ok v τ => asks (k v) τ
      | .raise _ _ => []
  | .size q k, σ =>
    match (Threads.lengthOf q).run σ with
    | .ok l τ => asks (k l) τ
    | .raise _ _ => []

/-- The request asks for at most `n` bytes, or 64 bits (`read_bytes`, `read_bits_int_be`; the other methods have no such argument). -/
def AtMost (n : Nat) (request : String × List PyVal) : Prop :=
  (∀ i : Int, request = ("read_bytes", [.int i]) → i ≤ n) ∧ ∀ i : Int, request = ("read_bits_int_be", [.int i]) → i ≤ 64

/-- What the clients are about to ask of streams. -/
def Clients.asking {ι : Type} (w : Clients ι) (i : ι) (request : String × List PyVal) : Prop :=
  ∃ q k, (w.clients i).now = some (.io q request.1 request.2 k)

namespace Requests

theorem atMost_of {L : Nat} {m : String} {a : List PyVal} (h : Polite L m a) : AtMost (max 65535 L) (m, a) :=
  ⟨fun i e => by cases e; have := h.1 rfl i rfl; omega, fun i e => by cases e; exact h.2 rfl i rfl⟩

theorem asks_sure {α : Type} {A : Attrs} {L : Nat} {Q : α → Prop} : ∀ (q : R α) (σ : State), Sure A L Q q → Good A L σ → ∀ r ∈ asks q σ, AtMost (max 65535 L) r := by
  intro q
  induction q with
  | done a => exact fun _ _ _ r h => by cases h
  | raise e => exact fun _ _ _ r h => by cases h
  | fetch p k ih =>
    intro σ hq hg r hr
    have h := yields_fetch p σ hg
    rw [asks] at hr
    cases hm : (fetch p).run σ with
    | raise e τ => rw [hm] at hr; cases hr
    | ok o τ => rw [hm] at hr h; exact ih o τ (hq o (h.2 o τ rfl)) h.1 r hr
  | store p x v k ih =>
    intro σ hq hg r hr
    have h := yields_store p hq.1 σ hg
    rw [asks] at hr
    cases hm : (store p x v).run σ with
    | raise e τ => rw [hm] at hr; cases hr
    | ok o τ => rw [hm] at hr h; exact ih τ hq.2 h.1 r hr
  | alloc c k ih =>
    intro σ hq hg r hr
    have h := yields_alloc (A := A) (L := L) c σ hg
    rw [asks] at hr
    cases hm : (alloc c).run σ with
    | raise e τ => rw [hm] at hr; cases hr
    | ok o τ => rw [hm] at hr h; exact ih o τ (hq o) h.1 r hr
  | stream b k ih =>
    intro σ hq hg r hr
    have h := yields_open (A := A) hq.1 σ hg
    rw [asks] at hr
    cases hm : (open_ b).run σ with
    | raise e τ => rw [hm] at hr; cases hr
    | ok o τ => rw [hm] at hr h; exact ih o τ (hq.2 o) h.1 r hr
  | io p m a k ih =>
    intro σ hq hg r hr
    have h := yields_io (A := A) p m (a.map .pv) σ hg
    rw [asks] at hr
    rcases List.mem_cons.1 hr with rfl | hr
    · exact atMost_of hq.1
    · cases hm : (ioMethod p m (a.map .pv)).run σ with
      | raise e τ => rw [hm] at hr; cases hr
      | ok o τ => rw [hm] at hr h; exact ih o τ (hq.2 o (h.2 o τ rfl)) h.1 r hr
  | size p k ih =>
    intro σ hq hg r hr
    have h := yields_length (A := A) p σ hg
    rw [asks] at hr
    cases hm : (Threads.lengthOf p).run σ with
    | raise e τ => rw [hm] at hr; cases hr
    | ok o τ => rw [hm] at hr h; exact ih o τ (hq o) h.1 r hr

end Requests

open Requests

/-- **C77.** Whatever the bytes say, `cls.from_bytes(b)` never asks for more than 65535 bytes (or as many as there are, if these are more)
at once, nor for more than 64 bits; whether it returns or raises. -/
theorem C77_from_bytes (n : Nat) (cls : String) (b : Bytes) : ∀ r ∈ asks ((decoding cls b).thread n) ⟨[], []⟩, AtMost (max 65535 b.length) r :=
  asks_sure _ _ (decoding_sure n cls (Nat.le_refl _)) ⟨fun r o h => (by cases h), fun k s h => (by cases h)⟩

/-- **C77.** Nor does it happen later: any number of programs decode packets of at most `L` bytes, and use what they got (attributes, properties,
what others got) in any way and any order; at no moment is one of them about to ask a stream for more. -/
theorem C77_clients {ι : Type} [DecidableEq ι] (L n : Nat) (programs : ι → Program' ι)
    (short : ∀ i seen cls b, programs i seen = some (.decode cls b) → b.length ≤ L) (turns : List ι) (i : ι) (r : String × List PyVal)
    (h : ((Clients.fresh ⟨[], []⟩).run n programs turns).asking i r) : AtMost (max 65535 L) r := by
  obtain ⟨q, k, h⟩ := h
  exact atMost_of ((modest_run n programs short turns _ modest_fresh).sure i _ h).1

/-- What was asked for, in a few words. -/
def inWords (l : List (String × List PyVal)) : List (String × Int) :=
  l.map fun
    | (m, [.int i]) => (m, i)
    | (m, _) => (m, 0)

/-- **C77.** A packet of four bytes does make it ask for 65535. -/
theorem C77_reached : ("read_bytes", 65535) ∈ inWords (asks ((decoding "Hytera.RadioControlProtocol" [0, 0, 0xff, 0xff]).thread 13) ⟨[], []⟩) := by
  decide +kernel

/-- The number of bytes that a client is about to ask for. -/
def wants : Option (R Val) → Option Int
  | some (.io _ "read_bytes" [.int i] _) => some i
  | _ => none

/-- There are such moments: two clients decode a packet of four bytes each, in turn, and before it has answered both ask for 65535 bytes. -/
example :
    let w := (Clients.fresh ⟨[], []⟩).run 13 (fun _ seen => if seen.isEmpty then some (.decode "Hytera.RadioControlProtocol" [0, 0, 0xff, 0xff]) else none)
      ((List.replicate 24 [false, true]).flatten)
    wants (w.clients false).now = some 65535 ∧ wants (w.clients true).now = some 65535 := by
  decide +kernel

end Dmr.Py
