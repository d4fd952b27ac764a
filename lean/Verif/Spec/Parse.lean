import Verif.Runtime
/-
Vocabulary for describing where the parts of a variable-size message lie. A description of a message
is a function of the whole buffer and the offset at which the message starts.
-/

namespace Dmr

/-- Either the exception, or the decoded object together with the offset of the first byte after it. -/
abbrev Parsed (α : Type) := Except PyErr (α × Nat)

/-- A part that must end at offset `e`, at or before the end of the data: EOFError otherwise. -/
def upTo (b : Bytes) (e : Nat) (x : Except PyErr γ) : Except PyErr γ :=
  if e ≤ b.length then x else .error .eof

/-- A part of exactly `n` bytes whose meaning is `f b o`. -/
def whole (n : Nat) (f : Bytes → Nat → α) (b : Bytes) (o : Nat) : Parsed α :=
  if o + n ≤ b.length then .ok (f b o, o + n) else .error .eof

/-- The same part seen as another type of object. -/
def Parsed.as (x : Parsed α) (g : α → β) : Parsed β :=
  match x with
  | .ok (a, e) => .ok (g a, e)
  | .error e => .error e

/-- A part, and then what follows it from the offset `e` of the first byte after it (never beyond the end
of the data). -/
def next (b : Bytes) (x : Parsed α) (k : α → Nat → Except PyErr γ) : Except PyErr γ :=
  match x with
  | .ok (a, e) => if e ≤ b.length then k a e else .error .eof
  | .error e => .error e

/-- Text decoded, or UnicodeDecodeError. -/
def decoded (t : Option PyStr) (k : PyStr → Except PyErr γ) : Except PyErr γ :=
  match t with
  | some t => k t
  | none => .error .unicode

/-- A text of `n` bytes at offset `o`: EOFError if it is cut short, UnicodeDecodeError if it is not
valid in the given encoding. -/
def textAt (codec : Bytes → Option PyStr) (b : Bytes) (o n : Nat) (k : PyStr → Except PyErr γ) : Except PyErr γ :=
  if o + n ≤ b.length then decoded (codec (slice b o n)) k else .error .eof

/-- `n` bytes at offset `o` where `n` may come out negative: ValueError then, EOFError if cut short. -/
def sizedAt (b : Bytes) (o : Nat) (n : Int) (k : Bytes → Except PyErr γ) : Except PyErr γ :=
  if n < 0 then .error .value
  else if o + n.toNat ≤ b.length then k (slice b o n.toNat)
  else .error .eof

/-- The bytes at offset `o` must be exactly `v`: EOFError if cut short, ValidationNotEqualError (for the
schema element `path`) if they differ. -/
def fixedAt (b : Bytes) (o : Nat) (v : Bytes) (path : String) (x : Except PyErr γ) : Except PyErr γ :=
  if o + v.length ≤ b.length then
    if slice b o v.length = v then x else .error (.validation path)
  else .error .eof

/-- A part that is there only if `c` holds. -/
def optPart (c : Prop) [Decidable c] (x : Parsed α) (o : Nat) : Parsed (Option α) :=
  if c then x.as some else .ok (none, o)

/-- Consecutive parts up to and including the first one for which `stop` holds (`stop` sees the part and the
offset after it). A part that does not advance would repeat for ever. -/
def chain (item : Bytes → Nat → Parsed α) (stop : α → Nat → Bool) (b : Bytes) (q : Nat) : Parsed (List α) :=
  match item b q with
  | .error x => .error x
  | .ok (a, e) =>
    if stop a e then .ok ([a], e)
    else if _h : q < e ∧ e ≤ b.length then
      match chain item stop b e with
      | .ok (as, e') => .ok (a :: as, e')
      | .error x => .error x
    else .error .diverge
termination_by b.length - q

/-- Consecutive parts up to the end of the data. -/
def toEnd (item : Bytes → Nat → Parsed α) (b : Bytes) (q : Nat) : Parsed (List α) :=
  if b.length ≤ q then .ok ([], q)
  else
    match item b q with
    | .error x => .error x
    | .ok (a, e) =>
      if _h : q < e ∧ e ≤ b.length then
        match toEnd item b e with
        | .ok (as, e') => .ok (a :: as, e')
        | .error x => .error x
      else .error .diverge
termination_by b.length - q

end Dmr
