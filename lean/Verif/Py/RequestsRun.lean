import Verif.Py.RequestsProofs
import Verif.Py.Client
/-
The checks of Verif/Py/Requests for the library, and for clients of it that take turns: nobody asks for anything large.
-/

set_option autoImplicit false

namespace Dmr.Py.Requests

open Threads

variable {α β : Type} {A : Attrs} {L : Nat}

/-- The streams are short, and the objects are such as there may be. -/
structure Good (A : Attrs) (L : Nat) (σ : State) : Prop where
  objects : ∀ (r : Nat) (o : Obj), σ.heap[r]? = some o → Fine A L o
  streams : ∀ (k : Nat) (s : Stream), σ.streams[k]? = some s → s.buf.length ≤ L

/-- It leaves the memory so, and its result is as `Q` says. -/
def Yields (A : Attrs) (L : Nat) (Q : α → Prop) (m : M α) : Prop :=
  ∀ σ, Good A L σ → Good A L (m.run σ).state ∧ ∀ a τ, m.run σ = .ok a τ → Q a

theorem yields_pure {Q : α → Prop} {a : α} (h : Q a) : Yields A L Q (pure a) := fun _ hg => ⟨hg, fun _ _ e => by cases e; exact h⟩
theorem yields_raise {Q : α → Prop} (e : PyErr) : Yields A L Q (raise e : M α) := fun _ hg => ⟨hg, fun _ _ e => by cases e⟩

theorem yields_bind {Q : α → Prop} {S : β → Prop} {m : M α} {f : α → M β} (hm : Yields A L Q m) (hf : ∀ a, Q a → Yields A L S (f a)) : Yields A L S (m >>= f) := by
  intro σ hg
  have e : (m >>= f).run σ = Out.bind (m.run σ) fun a σ' => (f a).run σ' := rfl
  have h := hm σ hg
  rw [e]
  cases hr : m.run σ with
  | ok a τ =>
    rw [hr] at h
    exact hf a (h.2 a τ rfl) τ h.1
  | raise e τ => rw [hr] at h; exact ⟨h.1, fun a τ e => by cases e⟩

theorem yields_onStream {Q : α → Prop} (k : Nat) {r : Rd α} (hr : KeepsBytes r) (hq : ∀ s : Stream, s.buf.length ≤ L → ∀ a s', r s = (.ok a, s') → Q a) :
    Yields A L Q (onStream k r) := by
  intro σ hg
  unfold M.run onStream after
  cases hs : σ.streams[k]? with
  | none => exact ⟨hg, fun _ _ e => by cases e⟩
  | some s =>
    have hb := hr s
    have hl := hg.streams k s hs
    have : ∀ s', s'.buf = s.buf → Good A L ⟨σ.heap, σ.streams.set k s'⟩ := by
      intro s' e
      refine ⟨hg.objects, fun j t h => ?_⟩
      by_cases hj : k = j
      · subst hj
        rw [List.getElem?_set_self (List.getElem?_eq_some_iff.1 hs).1] at h
        cases h
        rw [e]; exact hl
      · rw [List.getElem?_set_ne hj] at h
        exact hg.streams j t h
    dsimp only
    rcases hx : r s with ⟨_ | a, s'⟩ <;> rw [hx] at hb
    · exact ⟨this s' hb, fun _ _ e => by cases e⟩
    · exact ⟨this s' hb, fun b τ e => by cases e; exact hq s hl a s' hx⟩

theorem ok_bind {r : Rd α} {f : α → Rd β} {s s' : Stream} {b : β} (h : (r >>= f) s = (.ok b, s')) : ∃ a s1, r s = (.ok a, s1) ∧ f a s1 = (.ok b, s') := by
  change Rd.bind r f s = _ at h
  unfold Rd.bind at h
  rcases hr : r s with ⟨_ | a, s1⟩ <;> rw [hr] at h
  · cases h
  · exact ⟨a, s1, rfl, h⟩

theorem ok_unpack {n : Nat} {f : Bytes → α} {s s' : Stream} {a : α} (h : (do let b ← readBytes n; return f b : Rd α) s = (.ok a, s')) : ∃ b, a = f b := by
  obtain ⟨b, s1, -, h⟩ := ok_bind h
  cases h
  exact ⟨b, rfl⟩

theorem ok_bytes {n : Int} {s s' : Stream} {b : Bytes} (h : readBytesInt n s = (.ok b, s')) : b.length ≤ s.buf.length := by
  obtain ⟨_, s1, h1, h⟩ := ok_bind h
  cases h1
  split at h
  · cases h
  · unfold readBytesNotAligned at h
    dsimp only at h
    split at h
    · cases h
      rw [List.length_take, List.length_drop]
      omega
    · cases h

theorem ok_full {s s' : Stream} {b : Bytes} (h : readBytesFull s = (.ok b, s')) : b.length ≤ s.buf.length := by
  obtain ⟨_, s1, h1, h⟩ := ok_bind h
  cases h1
  cases h
  rw [List.length_drop]
  exact Nat.sub_le _ _

/-- A number that was read otherwise. -/
theorem answer_other {m : String} {v : Val} (h1 : m ∉ ["read_u1", "read_u2be", "read_u2le", "pos", "size"]) (hr : Raw L v) : Answer L m v := by
  simp only [List.mem_cons, List.not_mem_nil, or_false, not_or] at h1
  refine ⟨fun h => ?_, fun h => ?_, fun h => absurd h h1.2.2.2.2, hr⟩
  · simp only [List.mem_cons, List.not_mem_nil, or_false] at h
    rcases h with h | h | h
    · exact absurd h h1.1
    · exact absurd h h1.2.1
    · exact absurd h h1.2.2.1
  · exact h.elim (fun h => absurd h h1.2.2.2.1) fun h => absurd h h1.2.2.2.2

theorem answer_small {m : String} {i : Nat} (h : i ≤ 65535) : Answer L m (.pv (.int (Int.ofNat i))) := by
  have hs : Small (.pv (.int (Int.ofNat i))) := fun j hj => by cases hj; simp only [Int.ofNat_eq_natCast]; omega
  exact ⟨fun _ => hs, fun _ => hs.nonneg, fun _ => hs.upto, fun b h => by cases h⟩

theorem yields_io (k : Nat) (m : String) (args : List Val) : Yields A L (Answer L m) (ioMethod k m args) := by
  have other : ∀ {γ : Type} {r : Rd γ} {f : γ → Val}, KeepsBytes r → (∀ c b, f c ≠ .pv (.bytes b)) → m ∉ ["read_u1", "read_u2be", "read_u2le", "pos", "size"] →
      Yields A L (Answer L m) (do return f (← onStream k r)) := fun hr hf h1 =>
    yields_bind (yields_onStream (Q := fun _ => True) k hr fun _ _ _ _ _ => trivial) fun a _ => yields_pure (answer_other h1 fun b h => absurd h (hf a b))
  have unpack : ∀ {γ : Type} {n : Nat} {f : Bytes → γ}, KeepsBytes (do let b ← readBytes n; return f b : Rd γ) :=
    keepsBytes_bind (keepsBytes_bytes _) fun _ => keepsBytes_pure _
  rw [ioMethod.eq_def]
  split
  · refine yields_bind (yields_onStream (Q := fun a => a ≤ 65535) k unpack fun s _ a s' h => ?_) fun a ha => yields_pure (answer_small ha)
    obtain ⟨b, rfl⟩ := ok_unpack h
    have : u8 b 0 < 256 := UInt8.toNat_lt _
    omega
  · refine yields_bind (yields_onStream (Q := fun a => a ≤ 65535) k unpack fun s _ a s' h => ?_) fun a ha => yields_pure (answer_small ha)
    obtain ⟨b, rfl⟩ := ok_unpack h
    have : u8 b 0 < 256 := UInt8.toNat_lt _
    have : u8 b (0 + 1) < 256 := UInt8.toNat_lt _
    unfold u16be
    omega
  · refine yields_bind (yields_onStream (Q := fun a => a ≤ 65535) k unpack fun s _ a s' h => ?_) fun a ha => yields_pure (answer_small ha)
    obtain ⟨b, rfl⟩ := ok_unpack h
    have : u8 b 0 < 256 := UInt8.toNat_lt _
    have : u8 b (0 + 1) < 256 := UInt8.toNat_lt _
    unfold u16le
    omega
  · exact other unpack (fun _ _ h => by cases h) (by decide)
  · exact other unpack (fun _ _ h => by cases h) (by decide)
  · exact other unpack (fun _ _ h => by cases h) (by decide)
  · exact other (keepsBytes_bits _) (fun _ _ h => by cases h) (by decide)
  · exact yields_bind (yields_onStream (Q := fun b => b.length ≤ L) k (keepsBytes_bytesInt _) fun s hs b s' h => Nat.le_trans (ok_bytes h) hs) fun b hb =>
      yields_pure (answer_other (by decide) fun b' h => by cases h; exact hb)
  · exact yields_bind (yields_onStream (Q := fun b => b.length ≤ L) k keepsBytes_full fun s hs b s' h => Nat.le_trans (ok_full h) hs) fun b hb =>
      yields_pure (answer_other (by decide) fun b' h => by cases h; exact hb)
  · refine yields_bind (yields_onStream (Q := fun _ => True) k keepsBytes_align fun _ _ _ _ _ => trivial) fun _ _ => yields_pure ?_
    exact answer_other (by decide) fun b h => by cases h
  · refine yields_bind (yields_onStream (Q := fun _ => True) k (fun _ => rfl) fun _ _ _ _ _ => trivial) fun _ _ => yields_pure ?_
    exact answer_other (by decide) fun b h => by cases h
  · exact yields_bind (yields_onStream (Q := fun _ => True) k (fun _ => rfl) fun _ _ _ _ _ => trivial) fun a _ =>
      yields_pure ⟨fun h => absurd h (by decide), fun _ i h => by cases h; exact Int.natCast_nonneg _, fun h => absurd h (by decide), fun b h => by cases h⟩
  · refine yields_bind (yields_onStream (Q := fun a => a ≤ L) k (fun _ => rfl) fun s hs a s' h => ?_) fun a ha =>
      yields_pure ⟨fun h => absurd h (by decide), fun _ i h => by cases h; exact Int.natCast_nonneg _, fun _ i h => ?_, fun b h => by cases h⟩
    · cases h; exact hs
    · cases h; simp only [Int.ofNat_eq_natCast]; omega
  · rename_i n
    dsimp only
    have hv : Yields A L (Answer L "seek") (pure (.pv .none)) := yields_pure (answer_other (by decide) fun b h => by cases h)
    split
    · exact yields_bind (Q := fun _ => True) (yields_raise _) fun _ _ => hv
    · exact yields_bind (yields_onStream (Q := fun _ => True) k (fun _ => rfl) fun _ _ _ _ _ => trivial) fun _ _ => hv
  · exact yields_raise _

theorem yields_fetch (r : Nat) : Yields A L (Fine A L) (fetch r) := by
  intro σ hg
  unfold M.run fetch
  cases h : σ.heap[r]? with
  | none => exact ⟨hg, fun _ _ e => by cases e⟩
  | some o => exact ⟨hg, fun _ _ e => by cases e; exact hg.objects r o h⟩

theorem yields_store (r : Nat) {x : String} {v : Val} (hv : Fact A L x v) : Yields A L (fun _ => True) (store r x v) := by
  intro σ hg
  unfold M.run store
  cases h : σ.heap[r]? with
  | none => exact ⟨hg, fun _ _ e => by cases e⟩
  | some o =>
    refine ⟨⟨fun q p hp => ?_, hg.streams⟩, fun _ _ _ => trivial⟩
    by_cases hq : r = q
    · subst hq
      change (σ.heap.set r _)[r]? = _ at hp
      rw [List.getElem?_set_self (List.getElem?_eq_some_iff.1 h).1] at hp
      cases hp
      intro y w hw
      dsimp only at hw
      rw [grow_lookup_upsert] at hw
      split at hw
      · rename_i e
        cases hw; subst e; exact hv
      · exact hg.objects r o h y w hw
    · change (σ.heap.set r _)[q]? = _ at hp
      rw [List.getElem?_set_ne hq] at hp
      exact hg.objects q p hp

theorem yields_alloc (c : String) : Yields A L (fun _ => True) (alloc c) := by
  refine fun σ hg => ⟨⟨fun q p hp => ?_, hg.streams⟩, fun _ _ _ => trivial⟩
  change (σ.heap ++ [_])[q]? = _ at hp
  rw [List.getElem?_append] at hp
  split at hp
  · exact hg.objects q p hp
  · rename_i hq
    cases hi : q - σ.heap.length with
    | zero => rw [hi] at hp; cases hp; exact fun x v h => by cases h
    | succ i => rw [hi] at hp; cases hp

theorem yields_open {b : Bytes} (hb : b.length ≤ L) : Yields A L (fun _ => True) (open_ b) := by
  refine fun σ hg => ⟨⟨hg.objects, fun q p hp => ?_⟩, fun _ _ _ => trivial⟩
  change (σ.streams ++ [_])[q]? = _ at hp
  rw [List.getElem?_append] at hp
  split at hp
  · exact hg.streams q p hp
  · rename_i hq
    cases hi : q - σ.streams.length with
    | zero => rw [hi] at hp; cases hp; exact hb
    | succ i => rw [hi] at hp; cases hp

theorem yields_length (k : Nat) : Yields A L (fun _ => True) (lengthOf k) := by
  intro σ hg
  unfold M.run lengthOf
  cases h : σ.streams[k]? with
  | none => exact ⟨hg, fun _ _ e => by cases e⟩
  | some s => exact ⟨hg, fun _ _ e => trivial⟩

/-- A step of a thread. -/
theorem step_sure {Q : α → Prop} {q : R α} (hq : Sure A L Q q) {σ : State} (hg : Good A L σ) : Sure A L Q (q.step σ).1 ∧ Good A L (q.step σ).2 := by
  have key : ∀ {γ : Type} {m : M γ} {S : γ → Prop} {k : γ → R α}, Yields A L S m → (∀ a, S a → Sure A L Q (k a)) →
      Sure A L Q (R.next k (m.run σ)).1 ∧ Good A L (R.next k (m.run σ)).2 := by
    intro γ m S k hm hk
    have h := hm σ hg
    cases hr : m.run σ with
    | ok a τ => rw [hr] at h; exact ⟨hk a (h.2 a τ rfl), h.1⟩
    | raise e τ => rw [hr] at h; exact ⟨trivial, h.1⟩
  cases q with
  | done a => exact ⟨hq, hg⟩
  | raise e => exact ⟨hq, hg⟩
  | fetch r k => exact key (yields_fetch r) hq
  | store r x v k => exact key (yields_store r hq.1) fun _ _ => hq.2
  | alloc c k => exact key (yields_alloc c) fun n _ => hq n
  | stream b k => exact key (yields_open hq.1) fun n _ => hq.2 n
  | io n m a k => exact key (yields_io n m _) hq.2
  | size n k => exact key (yields_length n) fun n _ => hq n

/-! ### The library -/

/-- The attributes and properties of the library that hold lengths and short byte strings. -/
def known : Attrs :=
  let lengths := ["len_address", "len_value", "len_device_identifier", "len_user_identifier", "len_password", "message_length", "option_field_len",
    "len_option_payload", "len_padding", "len_padding_if_exists", "_m_len_padding", "_m_len_padding_if_exists"]
  ⟨lengths, lengths ++ ["option_sum_len", "_m_option_sum_len"], ["_raw__m_data"]⟩

theorem known_sane : known.Sane := by unfold Attrs.Sane; decide

set_option maxRecDepth 20000 in
/-- What every class of the library asks for is small by its form. -/
theorem library_fits : ∀ d ∈ library.classes, classFits known d = true := by
  rw [← List.all_eq_true]
  decide +kernel

theorem library_sure (L n : Nat) : CallsOk known L (Threads.calls library n) := calls_sure library known_sane library_fits n

theorem decoding_sure (n : Nat) (cls : String) {b : Bytes} (hb : b.length ≤ L) : Sure known L (fun _ => True) ((decoding cls b).thread n) := by
  unfold Task.thread Threads.call
  refine sure_bind (Q := fun _ => True) ?_ fun f _ => by cases f <;> exact sure_pure trivial
  show Sure known L _ (Threads.execs library (Threads.calls library n)
    [.return_ (.call (.cls cls) [.call (.global "KaitaiStream") [.call (.global "BytesIO") [.name "data"]]])] [("data", .pv (.bytes b))])
  rw [Threads.execs]
  refine sure_bind (Q := fun _ => True) ?_ fun f _ => ?_
  · rw [Threads.exec]
    refine sure_bind (Q := fun _ => True) ?_ fun v _ => sure_pure trivial
    rw [Threads.eval]
    refine sure_bind (Q := fun _ => True) ?_ fun v _ => ((library_sure L n).construct _ _).mono fun _ _ => trivial
    simp only [Threads.evals, Threads.eval]
    exact ⟨hb, fun k => trivial⟩
  · cases f with
    | next env =>
      show Sure known L _ (Threads.execs library (Threads.calls library n) [] env)
      rw [Threads.execs]; exact sure_pure trivial
    | brk env => exact sure_pure trivial
    | ret v => exact sure_pure trivial

variable {ι : Type}

theorem begin_sure (n : Nat) (all : ι → List Py.Answer) (i : ι) (r : Request ι) (hr : ∀ cls b, r = .decode cls b → b.length ≤ L) :
    Sure known L (fun _ => True) (r.begin n all i) := by
  cases r with
  | decode cls b => exact decoding_sure n cls (hr cls b rfl)
  | get k p =>
    unfold Request.begin
    dsimp only
    split
    · exact (getattr_sure known_sane (library_sure L n) _ _).mono fun _ _ => trivial
    · exact trivial
  | item k m =>
    unfold Request.begin
    dsimp only
    split
    · split <;> exact trivial
    · exact trivial
  | type k =>
    unfold Request.begin
    dsimp only
    split
    · exact fun _ _ => trivial
    · exact trivial
  | borrow j k =>
    unfold Request.begin
    dsimp only
    split
    · rename_i a _
      cases a <;> exact trivial
    · exact trivial

variable [DecidableEq ι]

/-- What the clients are about to do is small. -/
structure Modest (L : Nat) (w : Clients ι) : Prop where
  memory : Good known L w.memory
  sure : ∀ i q, (w.clients i).now = some q → Sure known L (fun _ => True) q

theorem modest_step (n : Nat) (programs : ι → Program' ι) (short : ∀ i seen cls b, programs i seen = some (.decode cls b) → b.length ≤ L) (w : Clients ι) (i : ι)
    (h : Modest L w) : Modest L (w.step n programs i) := by
  have set : ∀ c σ, Good known L σ → (∀ q, c.now = some q → Sure known L (fun _ => True) q) → Modest L (w.set i c σ) := by
    refine fun c σ hg hc => ⟨hg, fun j q hq => ?_⟩
    unfold Clients.set at hq
    dsimp only at hq
    split at hq
    · exact hc q hq
    · exact h.sure j q hq
  unfold Clients.step
  cases hn : (w.clients i).now with
  | none =>
    dsimp only
    cases hp : programs i (w.clients i).seen with
    | none => exact h
    | some r =>
      refine set _ _ h.memory fun q hq => ?_
      cases hq
      exact begin_sure n _ i r fun cls b e => short i _ cls b (by rw [hp, e])
  | some q =>
    dsimp only
    cases q.result with
    | some a => exact set _ _ h.memory fun q hq => by cases hq
    | none =>
      have hs := step_sure (h.sure i q hn) h.memory
      exact set _ _ hs.2 fun q hq => by cases hq; exact hs.1

theorem modest_run (n : Nat) (programs : ι → Program' ι) (short : ∀ i seen cls b, programs i seen = some (.decode cls b) → b.length ≤ L) (turns : List ι) :
    ∀ w : Clients ι, Modest L w → Modest L (w.run n programs turns) := by
  induction turns with
  | nil => exact fun w h => h
  | cons i turns ih => exact fun w h => ih _ (modest_step n programs short w i h)

theorem modest_fresh : Modest L (Clients.fresh ⟨[], []⟩ : Clients ι) :=
  ⟨⟨fun r o h => (by cases h), fun k s h => (by cases h)⟩, fun i q h => (by cases h)⟩

end Dmr.Py.Requests
