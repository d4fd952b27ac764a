import Verif.Py.Spec
import Verif.Model.Properties
/-
What is said about running the properties of the source (Verif/Props/SourceProperties).
-/

set_option autoImplicit false

namespace Dmr.Py

/-- The attributes in which properties remember their values. -/
def memos : List String :=
  ["_m_radio_id", "_m_radio_ip", "_m_gps_available", "_m_source_radio_id", "_m_destination_radio_id", "_m_color_code", "_m_is_wakeup",
   "_m_len_padding_if_exists", "_m_len_padding", "_m_specific_service", "_m_option_sum_len", "_m_opcode", "_m_sequence_number",
   "_m_custom_pdu_type", "_m_fifth_letter", "_m_appended_blocks", "_m_data", "_raw__m_data"]

mutual
/-- The value `x`, in the memory `h`, is the tree `v`, apart from what properties have remembered, and from `_io`, `_parent` and
`_root`: objects have the same class, and attributes with the same names and the same values. -/
inductive Reads (h : List Obj) : Val → PyVal → Prop
  | plain (v : PyVal) (struct : ∀ cls vs, v ≠ .struct cls vs) (list : ∀ vs, v ≠ .list vs) : Reads h (.pv v) v
  | list {xs : List Val} {vs : List PyVal} (e : ReadsItems h xs vs) : Reads h (.list xs) (.list vs)
  | object {r : Nat} {cls : String} {attrs : List (String × Val)} {vs : List (String × PyVal)} (f : String → Val)
      (at_ : h[r]? = some ⟨cls, attrs⟩)
      (names : ∀ x, x ∉ links → x ∉ memos → attrs.lookup x = if (vs.lookup x).isSome then some (f x) else none)
      (values : ∀ x v, x ∉ links → x ∉ memos → vs.lookup x = some v → Reads h (f x) v) : Reads h (.obj r) (.struct cls vs)
/-- Item by item. -/
inductive ReadsItems (h : List Obj) : List Val → List PyVal → Prop
  | nil : ReadsItems h [] []
  | cons {x : Val} {v : PyVal} {xs : List Val} {vs : List PyVal} (e : Reads h x v) (es : ReadsItems h xs vs) :
      ReadsItems h (x :: xs) (v :: vs)
end

/-- Both are there, and the one is the other; or neither is. -/
def Like (h : List Obj) : Option Val → Option PyVal → Prop
  | some w, some v => Reads h w v
  | none, none => True
  | _, _ => False

/-- In the memory `σ` the object with the number `r` is `o`, an object of the class `c`, and its stream, with the number `k`, is `io`. -/
structure Holds (σ : State) (r k : Nat) (c : LazyClass) (o : PyObj c.Attrs) (io : Stream) : Prop where
  stream : σ.streams[k]? = some io
  object : ∃ cls vs attrs, c.view o.attrs = .struct cls vs ∧ σ.heap[r]? = some ⟨cls, attrs⟩ ∧ attrs.lookup "_io" = some (.io k) ∧
    (cls ∈ fileClasses → attrs.lookup "_root" = some (.obj r)) ∧
    ∀ x, x ∉ links → Like σ.heap (attrs.lookup x) (if x ∈ memos then o.caches.lookup x else vs.lookup x)

/-- Between `σ` and `τ`, nothing has changed but what properties of the object `r` have remembered, and the position in the stream
`k`; there may be new objects and streams. -/
structure Rest (r k : Nat) (σ τ : State) : Prop where
  others : ∀ q o, q ≠ r → σ.heap[q]? = some o → τ.heap[q]? = some o
  self : ∀ o, σ.heap[r]? = some o → ∃ o', τ.heap[r]? = some o' ∧ o'.cls = o.cls ∧ ∀ x, x ∉ memos → o'.get x = o.get x
  streams : ∀ j s, j ≠ k → σ.streams[j]? = some s → τ.streams[j]? = some s

/-- `getattr(x, p)` for the object `x` with the number `r`. -/
def access (P : Program) (n : Nat) (r : Nat) (p : String) (σ : State) : Out Val := (getattr (calls P n) (.obj r) p).run σ

/-- Running the source gives what the model `m` says: the same exception or the same value, and the object and the stream are the
same afterwards. -/
def Simulates (σ : State) (r k : Nat) (c : LazyClass) (out : Out Val) (m : Except PyErr PyVal × PyObj c.Attrs × Stream) : Prop :=
  ∃ τ, (match m.1 with
      | .error e => out = .raise e τ
      | .ok v => ∃ w, out = .ok w τ ∧ Reads τ.heap w v) ∧
    Holds τ r k c m.2.1 m.2.2 ∧ Rest r k σ τ

/-- One access after another, each by the number of the object and the name of the property. An access that raises does not stop
the others. -/
def accesses (P : Program) (n : Nat) : List (Nat × String) → State → List (Except PyErr Val) × State
  | [], σ => ([], σ)
  | (r, p) :: rest, σ =>
    match access P n r p σ with
    | .ok v τ => let l := accesses P n rest τ; (.ok v :: l.1, l.2)
    | .raise e τ => let l := accesses P n rest τ; (.error e :: l.1, l.2)

/-- Running has given what is expected: the same exception, or the same value. -/
def Outcome (h : List Obj) : Except PyErr Val → Except PyErr PyVal → Prop
  | .error e, .error e' => e = e'
  | .ok w, .ok v => Reads h w v
  | _, _ => False

/-- Between `σ` and `τ`, nothing has changed but what properties of the objects `rs` have remembered, and the stream `k`; there may
be new objects and streams. -/
structure Unchanged (rs : List Nat) (k : Nat) (σ τ : State) : Prop where
  others : ∀ q o, q ∉ rs → σ.heap[q]? = some o → τ.heap[q]? = some o
  objects : ∀ (q : Nat) (o : Obj), σ.heap[q]? = some o → ∃ o' : Obj, τ.heap[q]? = some o' ∧ o'.cls = o.cls ∧ ∀ x, x ∉ memos → o'.get x = o.get x
  streams : ∀ j s, j ≠ k → σ.streams[j]? = some s → τ.streams[j]? = some s

end Dmr.Py
