import Verif.Props.Source
import Verif.Props.Positions
import Verif.Props.Receiving
import Verif.Py.Same
/-
C63: what running the source of the decoders does on a stream that is not fresh, in a memory in which other objects already are; and what
the properties C41, C42, C48 and C49 say about it. Nothing here is about the models of the classes: the theorems are about
runs of the source (`Py.fromBytes`, and `Py.new`, the constructor called with a stream).
-/

set_option autoImplicit false

namespace Dmr

open Py

/-- `cls(io)`: the constructor of the class, called with the stream `k`. -/
def Py.new (n : Nat) (cls : String) (k : Nat) : M Val := (calls library n).construct cls [.io k]

/-- `[cls(io) for cls in classes]`. -/
def Py.newAll (n k : Nat) : List String → M (List Val)
  | [] => return []
  | cls :: rest => do
    let v ← Py.new n cls k
    let vs ← Py.newAll n k rest
    return v :: vs

/-- Some objects, a stream in the middle of which a radio address starts, and another stream. -/
def aMemory : State := ⟨[⟨"Hytera.RadioId", []⟩], [Stream.new [1], ⟨[7, 7, 10, 0, 0, 80, 9], 2, 0, 0⟩]⟩

set_option maxRecDepth 20000 in
/-- Running the constructor there. -/
example : (Py.new 13 "Hytera.RadioIp" 1).run aMemory = .ok (.obj 1)
    ⟨[⟨"Hytera.RadioId", []⟩, ⟨"Hytera.RadioIp", [("_io", .io 1), ("_parent", .pv .none), ("_root", .obj 1), ("subnet", .pv (.int 10)),
      ("radio_id_1", .pv (.int 0)), ("radio_id_2", .pv (.int 0)), ("radio_id_3", .pv (.int 80))]⟩],
      [Stream.new [1], ⟨[7, 7, 10, 0, 0, 80, 9], 6, 0, 0⟩]⟩ := by rfl

/-- C63. If the model returns an object, then running the constructor returns the same object, in whatever memory and wherever the stream
is; the objects that were there before are unchanged, the new ones do not refer to them, and no other stream is touched. -/
theorem C63_returns (name : String) (R : Reader) (hR : (name, some R) ∈ table) (H : List Obj) (S : List Stream) (k : Nat) (s : Stream)
    (hk : S[k]? = some s) (h0 : name ∈ fromStart → s.pos = 0) (x : R.Obj) (s' : Stream) (h : R.read s = (.ok x, s')) :
    ∃ new, (∀ n, 13 ≤ n → (Py.new n name k).run ⟨H, S⟩ = .ok (.obj H.length) ⟨H ++ new, S.set k s'⟩) ∧
      Shows (H ++ new) (.obj H.length) (R.toPy x) ∧ NavigableIn H k new := by
  obtain ⟨make, hm⟩ := table_claims (name, some R) hR
  have hm := hm H S k s hk h0
  rw [h] at hm
  exact ⟨_, hm.1, hm.2.1, hm.2.2.1⟩

/-- C63. If the model raises an exception, so does the constructor; nothing is left in the memory. -/
theorem C63_raises (name : String) (R : Reader) (hR : (name, some R) ∈ table) (H : List Obj) (S : List Stream) (k : Nat) (s : Stream)
    (hk : S[k]? = some s) (h0 : name ∈ fromStart → s.pos = 0) (e : PyErr) (s' : Stream) (h : R.read s = (.error e, s')) (n : Nat) (hn : 13 ≤ n) :
    (Py.new n name k).run ⟨H, S⟩ = .raise e ⟨H, S.set k s'⟩ := by
  obtain ⟨make, hm⟩ := table_claims (name, some R) hR
  have hm := hm H S k s hk h0
  rw [h] at hm
  exact hm n hn

example := C63_returns "Hytera.RadioIp" ⟨_, Hytera.RadioIp.read, Hytera.RadioIp.toPy⟩ (List.mem_of_getElem? (i := 51) rfl) aMemory.heap aMemory.streams 1
  ⟨[7, 7, 10, 0, 0, 80, 9], 2, 0, 0⟩ rfl (fun _ => by contradiction) ⟨10, 0, 0, 80⟩ ⟨[7, 7, 10, 0, 0, 80, 9], 6, 0, 0⟩ (by decide +kernel)

/-! ### What `from_bytes` gives when there are more bytes, or fewer -/

theorem pduDecoders_in_table : ∀ d ∈ pduDecoders, ∃ v, (d.name, some ⟨d.Obj, d.read, v⟩) ∈ table := by
  intro d hd
  rcases List.mem_append.1 hd with h | h
  · exact sequentialDecoders_in_table d h
  · exact (List.forall_mem_cons.2 ⟨.intro _ (List.mem_of_getElem? (i := 62) rfl), List.forall_mem_cons.2 ⟨.intro _ (List.mem_of_getElem? (i := 11) rfl),
      List.forall_mem_cons.2 ⟨.intro _ (List.mem_of_getElem? (i := 12) rfl), List.forall_mem_nil _⟩⟩⟩ :
      ∀ d ∈ _, ∃ v, (d.name, some ⟨d.Obj, d.read, v⟩) ∈ table) d h

/-- C63. A class of `pduDecoders` uses as many bytes as it needs. If decoding `b` succeeds, and bytes are added at the end, then the memory in the
end is exactly the same, and the stream is left at the same place. -/
theorem C63_trailing (d : Decoder) (hd : d ∈ pduDecoders) (n : Nat) (hn : 13 ≤ n) (b : Bytes) (v : Val) (heap : List Obj) (s : Stream)
    (h : Py.fromBytes library n d.name b = .ok v ⟨heap, [s]⟩) (tail : Bytes) :
    Py.fromBytes library n d.name (b ++ tail) = .ok v ⟨heap, [{ s with buf := s.buf ++ tail }]⟩ := by
  obtain ⟨v', hv⟩ := pduDecoders_in_table d hd
  obtain ⟨make, hm⟩ := Constructs.agrees (table_claims _ hv)
  dsimp only at hm
  have hb := hm b
  have ht := hm (b ++ tail)
  have hg := Receiving.grows_new (Receiving.pdu_grows d hd) b tail
  rcases hx : d.read (Stream.new b) with ⟨e | x, s1⟩
  · rw [hx] at hb
    rw [hb n hn] at h
    cases h
  · rw [hx] at hb hg
    rw [hb.1 n hn] at h
    cases h
    rcases hg with hg | hg
    · cases hg
    rw [hg] at ht
    exact ht.1 n hn

set_option maxRecDepth 20000 in
theorem anAddress_runs : Py.fromBytes library 13 "Hytera.RadioIp" [10, 0, 0, 80] = .ok (.obj 0) ⟨[anAddress], [⟨[10, 0, 0, 80], 4, 0, 0⟩]⟩ := by rfl

/-- The class of radio addresses, and its place in the list. -/
def addresses : Decoder := ⟨"Hytera.RadioIp", _, Hytera.RadioIp.read⟩

theorem addresses_sequential : addresses ∈ sequentialDecoders := List.mem_of_getElem? (i := 55) rfl

example (tail : Bytes) : Py.fromBytes library 13 "Hytera.RadioIp" ([10, 0, 0, 80] ++ tail) =
    .ok (.obj 0) ⟨[anAddress], [⟨[10, 0, 0, 80] ++ tail, 4, 0, 0⟩]⟩ :=
  C63_trailing addresses (List.mem_append_left _ addresses_sequential) 13 (by decide) _ _ _ _ anAddress_runs tail

/-- C63. Of fewer bytes than it needs, EOFError is raised, and no object is left. -/
theorem C63_truncated (d : Decoder) (hd : d ∈ pduDecoders) (n : Nat) (hn : 13 ≤ n) (b : Bytes) (v : Val) (heap : List Obj) (s : Stream)
    (h : Py.fromBytes library n d.name b = .ok v ⟨heap, [s]⟩) (k : Nat) (hk : k < s.pos) :
    ∃ s', Py.fromBytes library n d.name (b.take k) = .raise .eof ⟨[], [s']⟩ := by
  obtain ⟨v', hv⟩ := pduDecoders_in_table d hd
  obtain ⟨make, hm⟩ := Constructs.agrees (table_claims _ hv)
  dsimp only at hm
  have hb := hm b
  have ht := hm (b.take k)
  rcases hx : d.read (Stream.new b) with ⟨e | x, s1⟩
  · rw [hx] at hb
    rw [hb n hn] at h
    cases h
  · rw [hx] at hb
    rw [hb.1 n hn] at h
    cases h
    have := C42_truncated d hd b x s.pos (by
      unfold parseAt Rd.eval
      rw [show ({ buf := b, pos := 0, bits := 0, bitsLeft := 0 } : Stream) = Stream.new b from rfl, hx]
      rfl) k hk
    unfold Dmr.fromBytes at this
    rcases hy : d.read (Stream.new (b.take k)) with ⟨e | y, s2⟩
    · rw [hy] at this ht
      cases this
      exact ⟨s2, ht n hn⟩
    · rw [hy] at this
      cases this

example : ∃ s, Py.fromBytes library 13 "Hytera.RadioIp" [10, 0, 0] = .raise .eof ⟨[], [s]⟩ :=
  C63_truncated addresses (List.mem_append_left _ addresses_sequential) 13 (by decide) _ _ _ _ anAddress_runs 3 (by decide)

/-! ### Where in the stream -/

/-- C63. For the classes of `relocatableDecoders` it makes no difference what is in the stream before the place where it is: with other
bytes there, the constructor gives the same objects, and leaves the stream at the same place of what follows. -/
theorem C63_position (d : Decoder) (hd : d ∈ relocatableDecoders) (n : Nat) (hn : 13 ≤ n)
    (H : List Obj) (S : List Stream) (k : Nat) (s : Stream) (hk : S[k]? = some s) (pre : Bytes) :
    (∃ new s', (Py.new n d.name k).run ⟨H, S⟩ = .ok (.obj H.length) ⟨H ++ new, S.set k s'⟩ ∧
        (Py.new n d.name k).run ⟨H, S.set k { s with buf := pre ++ s.buf, pos := pre.length + s.pos }⟩ =
          .ok (.obj H.length) ⟨H ++ new, S.set k { s' with buf := pre ++ s'.buf, pos := pre.length + s'.pos }⟩) ∨
    ∃ e s', (Py.new n d.name k).run ⟨H, S⟩ = .raise e ⟨H, S.set k s'⟩ ∧
        (Py.new n d.name k).run ⟨H, S.set k { s with buf := pre ++ s.buf, pos := pre.length + s.pos }⟩ =
          .raise e ⟨H, S.set k { s' with buf := pre ++ s'.buf, pos := pre.length + s'.pos }⟩ := by
  obtain ⟨v', hv⟩ := relocatableDecoders_in_table d hd
  obtain ⟨make, hm⟩ := table_claims _ hv
  dsimp only at hm
  have h0 : d.name ∉ fromStart := by
    have : ∀ d ∈ relocatableDecoders.map Decoder.name, d ∉ fromStart := by decide +kernel
    exact this _ (List.mem_map_of_mem hd)
  have h1 := hm H S k s hk (fun h => absurd h h0)
  have h2 := hm H (S.set k (s.shift pre)) k (s.shift pre) (by
    rw [List.getElem?_set_self (List.getElem?_eq_some_iff.1 hk).1]) (fun h => absurd h h0)
  have hs := relocatableDecoders_shift d hd s pre
  rcases hx : d.read s with ⟨e | x, s1⟩
  · rw [hx] at h1 hs
    rw [hs] at h2
    refine .inr ⟨e, s1, h1 n hn, ?_⟩
    have := h2 n hn
    rw [List.set_set] at this
    exact this
  · rw [hx] at h1 hs
    rw [hs] at h2
    refine .inl ⟨_, s1, h1.1 n hn, ?_⟩
    have := h2.1 n hn
    rw [List.set_set] at this
    exact this

example (pre : Bytes) := C63_position addresses (List.mem_of_getElem? (i := 65) rfl) 13 (by decide) aMemory.heap aMemory.streams 1
  ⟨[7, 7, 10, 0, 0, 80, 9], 2, 0, 0⟩ rfl pre

/-! ### One after another -/

/-- Alone, the bytes of the message give an object that looks like `tree`, and all of them are used. -/
def Py.Complete (n : Nat) (message : String × Bytes) (tree : PyVal) : Prop :=
  ∃ heap s, Py.fromBytes library n message.1 message.2 = .ok (.obj 0) ⟨heap, [s]⟩ ∧ Shows heap (.obj 0) tree ∧ isEof s = (.ok true, s)

theorem Py.Complete.model {n : Nat} (hn : 13 ≤ n) {m : String × Bytes} {tree : PyVal} (h : Py.Complete n m tree)
    (hs : m.1 ∈ sequentialDecoders.map Decoder.name) :
    ∃ (d : Decoder) (v : d.Obj → PyVal) (x : d.Obj), d.name = m.1 ∧ d ∈ sequentialDecoders ∧ (d.name, some ⟨d.Obj, d.read, v⟩) ∈ table ∧
      (⟨d, m.2, x⟩ : Message).Complete ∧ ∀ (h : List Obj) (y : Val), Shows h y (v x) → Shows h y tree := by
  obtain ⟨cls, b⟩ := m
  obtain ⟨d, hd, rfl⟩ : ∃ d ∈ sequentialDecoders, d.name = cls := by simpa using hs
  obtain ⟨v, hv⟩ := sequentialDecoders_in_table d hd
  obtain ⟨heap, s, h, ht, he⟩ := h
  obtain ⟨make, hm⟩ := Constructs.agrees (table_claims _ hv)
  dsimp only at hm h
  have hb := hm b
  rcases hx : d.read (Stream.new b) with ⟨e | x, s1⟩
  · rw [hx] at hb
    rw [hb n hn] at h
    cases h
  · rw [hx] at hb
    rw [hb.1 n hn] at h
    cases h
    exact ⟨d, v, x, rfl, hd, hv, ⟨_, hx, he⟩, fun h y hy => hy.same hb.2.1 ht⟩

theorem Py.new_complete {n : Nat} (hn : 13 ≤ n) {m : String × Bytes} {tree : PyVal} (h : Py.Complete n m tree)
    (hs : m.1 ∈ sequentialDecoders.map Decoder.name) (H : List Obj) (S : List Stream) (k : Nat) (buf : Bytes) (q : Nat) (tail : Bytes)
    (hq : buf.drop q = m.2 ++ tail) (hk : k < S.length) :
    ∃ new, (Py.new n m.1 k).run ⟨H, S.set k ⟨buf, q, 0, 0⟩⟩ = .ok (.obj H.length) ⟨H ++ new, S.set k ⟨buf, q + m.2.length, 0, 0⟩⟩ ∧
      Shows (H ++ new) (.obj H.length) tree := by
  obtain ⟨d, v, x, hd, hd', hv, hc, ht⟩ := h.model hn hs
  have hr := hc.run hd' buf q tail hq
  have h0 : d.name ∉ fromStart := by
    have : ∀ d ∈ sequentialDecoders.map Decoder.name, d ∉ fromStart := by decide +kernel
    exact this _ (List.mem_map_of_mem hd')
  obtain ⟨new, h1, h2, -⟩ := C63_returns d.name _ hv H (S.set k ⟨buf, q, 0, 0⟩) k ⟨buf, q, 0, 0⟩
    (by rw [List.getElem?_set_self hk]) (fun h => absurd h h0) x _ hr
  refine ⟨new, ?_, ht _ _ h2⟩
  have := h1 n hn
  rw [List.set_set, hd] at this
  exact this

theorem Py.newAll_run {n : Nat} (hn : 13 ≤ n) {messages : List (String × Bytes)} {trees : List PyVal}
    (complete : List.Forall₂ (Py.Complete n) messages trees) (k : Nat) (buf : Bytes) :
    (∀ m ∈ messages, m.1 ∈ sequentialDecoders.map Decoder.name) → ∀ (H : List Obj) (S : List Stream) (q : Nat) (tail : Bytes), buf.drop q = (messages.map Prod.snd).flatten ++ tail → k < S.length →
    ∃ vs new, (Py.newAll n k (messages.map Prod.fst)).run ⟨H, S.set k ⟨buf, q, 0, 0⟩⟩ =
        .ok vs ⟨H ++ new, S.set k ⟨buf, q + (messages.map Prod.snd).flatten.length, 0, 0⟩⟩ ∧ List.Forall₂ (Shows (H ++ new)) vs trees := by
  induction complete with
  | nil => intro _ H S q tail _ _; exact ⟨[], [], by simp [Py.newAll, run_pure], .nil⟩
  | @cons m tree ms trees h hs ih =>
    intro classes H S q tail hq hk
    have hq' : buf.drop q = m.2 ++ ((ms.map Prod.snd).flatten ++ tail) := by
      rw [hq]; simp only [List.map_cons, List.flatten_cons, List.append_assoc]
    obtain ⟨new, h1, h2⟩ := Py.new_complete hn h (classes m List.mem_cons_self) H S k buf q _ hq' hk
    obtain ⟨vs, more, h3, h4⟩ := ih (fun m' h' => classes m' (List.mem_cons_of_mem _ h')) (H ++ new) S (q + m.2.length) tail
      (by rw [← List.drop_drop, hq', List.drop_left]) hk
    refine ⟨.obj H.length :: vs, new ++ more, ?_, ?_⟩
    · simp only [List.map_cons, Py.newAll, run_bind, h1, bind_ok, h3, run_pure, List.flatten_cons, List.length_append, Nat.add_assoc,
        List.append_assoc]
    · rw [← List.append_assoc]
      exact .cons (h2.more more) h4

/-- C63. Objects of several classes, constructed one after another from the same stream, look like those that each message gives alone;
before and after the messages there may be anything, the stream is left right after the last one, and no construction disturbs the objects
of an earlier one. -/
theorem C63_in_turn (n : Nat) (hn : 13 ≤ n) (messages : List (String × Bytes)) (trees : List PyVal)
    (classes : ∀ m ∈ messages, m.1 ∈ sequentialDecoders.map Decoder.name) (complete : List.Forall₂ (Py.Complete n) messages trees)
    (H : List Obj) (S : List Stream) (k : Nat) (pre post : Bytes)
    (hk : S[k]? = some ⟨pre ++ (messages.map Prod.snd).flatten ++ post, pre.length, 0, 0⟩) :
    ∃ vs new, (Py.newAll n k (messages.map Prod.fst)).run ⟨H, S⟩ =
        .ok vs ⟨H ++ new, S.set k ⟨pre ++ (messages.map Prod.snd).flatten ++ post, pre.length + (messages.map Prod.snd).flatten.length, 0, 0⟩⟩ ∧
      List.Forall₂ (Shows (H ++ new)) vs trees := by
  obtain ⟨hlt, he⟩ := List.getElem?_eq_some_iff.1 hk
  have := Py.newAll_run hn complete k (pre ++ (messages.map Prod.snd).flatten ++ post) classes H S pre.length post (by rw [List.append_assoc, List.drop_left]) hlt
  rw [← he, List.set_getElem_self] at this
  exact this

/-- How the address looks. -/
def addressTree : PyVal := Hytera.RadioIp.toPy ⟨10, 0, 0, 80⟩

theorem anAddress_shows : Shows [anAddress] (.obj 0) addressTree := by
  refine .object rfl ?_
  refine .link (by decide) (.link (by decide) (.link (by decide) ?_))
  exact .cons (by decide) (.plain _ (by simp) (by simp)) (.cons (by decide) (.plain _ (by simp) (by simp))
    (.cons (by decide) (.plain _ (by simp) (by simp)) (.cons (by decide) (.plain _ (by simp) (by simp)) .nil)))

theorem address_complete : Py.Complete 13 ("Hytera.RadioIp", [10, 0, 0, 80]) addressTree :=
  ⟨[anAddress], ⟨[10, 0, 0, 80], 4, 0, 0⟩, anAddress_runs, anAddress_shows, rfl⟩

/-- Three addresses after two other bytes. -/
example := C63_in_turn 13 (by decide) (List.replicate 3 ("Hytera.RadioIp", [10, 0, 0, 80])) (List.replicate 3 addressTree)
  (fun m h => by rw [(List.mem_replicate.1 h).2]; exact List.mem_map_of_mem addresses_sequential)
  (.cons address_complete (.cons address_complete (.cons address_complete .nil))) aMemory.heap
  [Stream.new [1], ⟨[7, 7, 10, 0, 0, 80, 10, 0, 0, 80, 10, 0, 0, 80, 9], 2, 0, 0⟩] 1 [7, 7] [9] rfl

theorem Message.Complete.cut {m : Message} (h : m.Complete) (hd : m.decoder ∈ sequentialDecoders) (buf : Bytes) (q k : Nat)
    (hk : k < m.bytes.length) (hq : buf.drop q = m.bytes.take k) :
    ∃ s, m.decoder.read { buf := buf, pos := q, bits := 0, bitsLeft := 0 } = (.error .eof, s) := by
  obtain ⟨s, e, he⟩ := h
  obtain ⟨c, _, _, h3, h4⟩ := sequentialDecoders_local (G := AnyBuf) _ hd _ _ _ e
  have hb : s.buf.length ≤ s.pos := by
    unfold isEof at he
    split at he
    · cases he
    · exact of_decide_eq_true (by injection (congrArg Prod.fst he))
  have hr : s.rest = [] := List.drop_eq_nil_of_le hb
  have hc : m.bytes = c := by rw [hr, List.append_nil] at h3; exact h3
  have hs := (h4 { buf := buf, pos := q, bits := 0, bitsLeft := 0 } trivial rfl rfl).2
    (m.bytes[k]) (m.bytes.drop (k + 1)) (by
      show _ = buf.drop q ++ _
      rw [hq, ← List.drop_eq_getElem_cons, List.take_append_drop, hc])
  exact ⟨_, Prod.ext hs rfl⟩

theorem Py.newAll_append (n k : Nat) (l l' : List String) : ∀ σ, (Py.newAll n k (l ++ l')).run σ =
    ((Py.newAll n k l).run σ).bind fun vs σ' => ((Py.newAll n k l').run σ').bind fun ws τ => .ok (vs ++ ws) τ := by
  induction l with
  | nil =>
    intro σ
    rw [List.nil_append, Py.newAll, run_pure, bind_ok]
    rcases (Py.newAll n k l').run σ with _ | _ <;> rfl
  | cons c l ih =>
    intro σ
    simp only [List.cons_append, Py.newAll, run_bind]
    rcases (Py.new n c k).run σ with ⟨v, σ'⟩ | _
    · simp only [bind_ok, ih, run_pure]
      rcases (Py.newAll n k l).run σ' with ⟨vs, σ''⟩ | _
      · simp only [bind_ok]
        rcases (Py.newAll n k l').run σ'' with _ | _ <;> rfl
      · rfl
    · rfl

/-- C63. If the stream ends inside a message, the objects before it are constructed, and then EOFError is raised. -/
theorem C63_cut (n : Nat) (hn : 13 ≤ n) (messages : List (String × Bytes)) (trees : List PyVal) (last : String × Bytes) (lastTree : PyVal)
    (later : List String)
    (classes : ∀ m ∈ messages ++ [last], m.1 ∈ sequentialDecoders.map Decoder.name) (complete : List.Forall₂ (Py.Complete n) messages trees)
    (lastComplete : Py.Complete n last lastTree) (cut : Nat) (hc : cut < last.2.length) (H : List Obj) (S : List Stream) (k : Nat) (pre : Bytes)
    (hk : S[k]? = some ⟨pre ++ (messages.map Prod.snd).flatten ++ last.2.take cut, pre.length, 0, 0⟩) :
    ∃ vs new s', (Py.newAll n k (messages.map Prod.fst)).run ⟨H, S⟩ = .ok vs ⟨H ++ new, S.set k
        ⟨pre ++ (messages.map Prod.snd).flatten ++ last.2.take cut, pre.length + (messages.map Prod.snd).flatten.length, 0, 0⟩⟩ ∧
      List.Forall₂ (Shows (H ++ new)) vs trees ∧
      (Py.newAll n k (messages.map Prod.fst ++ last.1 :: later)).run ⟨H, S⟩ = .raise .eof ⟨H ++ new, S.set k s'⟩ := by
  obtain ⟨vs, new, h1, h2⟩ := C63_in_turn n hn messages trees (fun m h => classes m (List.mem_append_left _ h)) complete H S k pre (last.2.take cut) hk
  obtain ⟨d, v, x, hd, hd', hv, hm, -⟩ := lastComplete.model hn (classes last (List.mem_append_right _ (List.mem_singleton_self _)))
  obtain ⟨s', hs'⟩ := hm.cut hd' (pre ++ (messages.map Prod.snd).flatten ++ last.2.take cut) (pre.length + (messages.map Prod.snd).flatten.length)
    cut hc (by rw [← List.length_append, List.drop_left])
  have h0 : d.name ∉ fromStart := by
    have : ∀ d ∈ sequentialDecoders.map Decoder.name, d ∉ fromStart := by decide +kernel
    exact this _ (List.mem_map_of_mem hd')
  have h3 := C63_raises d.name _ hv (H ++ new) _ k _ (List.getElem?_set_self (List.getElem?_eq_some_iff.1 hk).1) (fun h => absurd h h0) _ _ hs' n hn
  refine ⟨vs, new, s', h1, h2, ?_⟩
  rw [List.set_set, hd] at h3
  rw [Py.newAll_append, h1, bind_ok, Py.newAll, run_bind, h3]
  rfl

/-- The second of three addresses is cut. -/
example := C63_cut 13 (by decide) [("Hytera.RadioIp", [10, 0, 0, 80])] [addressTree] ("Hytera.RadioIp", [10, 0, 0, 80]) addressTree ["Hytera.RadioIp"]
  (fun m h => by
    have : m = ("Hytera.RadioIp", [10, 0, 0, 80]) := by simpa using h
    rw [this]; exact List.mem_map_of_mem addresses_sequential)
  (.cons address_complete .nil) address_complete 2 (by decide) aMemory.heap [Stream.new [1], ⟨[7, 7, 10, 0, 0, 80, 10, 0], 2, 0, 0⟩] 1 [7, 7] rfl

end Dmr
