import Verif.Py.Version
import Verif.Py.Grow
/-
`_pos = self._io.pos(); self._io.seek(e); self.x = e'; self._io.seek(_pos)` in the two versions: the reading in between forgets the bits
that were read ahead anyway.
-/

set_option autoImplicit false
set_option linter.unusedSectionVars false

namespace Dmr.Py.Threads.Version

variable {α β : Type} {s : Bool}

/-- `self._io.m(...)`. -/
abbrev onIo (m : String) (args : List Expr) : Expr := .call (.attr (.attr (.name "self") "_io") m) args

/-- The same memory, with these objects. -/
def Open (H : List Obj) (σ' σ : State) : Prop := σ' = σ ∧ σ.heap = H
/-- In the newer version, the bits of the stream `k` are forgotten. -/
def Dirty (k : Nat) (H : List Obj) (σ' σ : State) : Prop := σ' = forget k σ ∧ σ.heap = H ∧ k < σ.streams.length
/-- The same memory, and there are no such bits. -/
def Clean (k : Nat) (H : List Obj) (σ' σ : State) : Prop := σ' = σ ∧ σ.heap = H ∧ forget k σ = σ

/-- Both memories have these objects. -/
def On (H : List Obj) (I : State → State → Prop) : Prop := ∀ σ' σ, I σ' σ → σ'.heap = H ∧ σ.heap = H

theorem on_open (H : List Obj) : On H (Open H) := by rintro _ σ ⟨rfl, h⟩; exact ⟨h, h⟩
theorem on_dirty (k : Nat) (H : List Obj) : On H (Dirty k H) := by rintro _ σ ⟨rfl, h, _⟩; exact ⟨h, h⟩
theorem on_clean (k : Nat) (H : List Obj) : On H (Clean k H) := by rintro _ σ ⟨rfl, h, _⟩; exact ⟨h, h⟩

theorem fine_eq {I : State → State → Prop} (h : ∀ σ' σ, I σ' σ → σ' = σ) : Fine s I := .inr h
theorem fine_open (H : List Obj) : Fine s (Open H) := .inr fun _ _ h => h.1
theorem fine_clean (k : Nat) (H : List Obj) : Fine s (Clean k H) := .inr fun _ _ h => h.1

/-- What raises such an exception whatever the memory. -/
def Fails (p : R α) : Prop := ∃ e, Lost e ∧ ∀ σ, p.run σ = .raise e σ ∧ p.run11 σ = .raise e σ

theorem Fails.rel {I J : State → State → Prop} {Q : α → Prop} {p : R α} (h : Fails p) (hf : Fine s I) : Rel s I J Q p := by
  obtain ⟨e, h1, h2⟩ := h
  intro σ' σ hi
  rw [(h2 σ).1, (h2 σ').2]
  exact ⟨rfl, hf.elim (fun hs => .inl ⟨hs, h1⟩) fun hi' => .inr (hi' σ' σ hi)⟩

/-- Calls as those of a program that has no such properties and methods. -/
structure Bare (c : Calls) : Prop where
  property : ∀ r x, x ∈ ["_io", "_root", "data_packet_format", "_raw__m_data"] → Fails (c.property r x)
  method : ∀ r m args, m ∈ ["pos", "size", "seek", "read_u1", "read_u2be", "read_bytes", "decode"] → Fails (c.method r m args)

theorem rel_get {H : List Obj} {I : State → State → Prop} (h : On H I) (hf : Fine s I) (r : Nat) : Rel s I I (fun o => H[r]? = some o) (R.get r) := by
  intro σ' σ hi
  obtain ⟨h1, h2⟩ := h _ _ hi
  show Agree s _ _ (((Py.fetch r).run σ').bind _) (((Py.fetch r).run σ).bind _)
  unfold Py.fetch M.run
  dsimp only
  rw [h1, h2]
  cases H[r]? with
  | none => exact ⟨rfl, hf.elim (fun hs => .inl ⟨hs, lost_attribute⟩) fun hi' => .inr (hi' σ' σ hi)⟩
  | some o => exact ⟨rfl, rfl, hi⟩

theorem rel_getattr {H : List Obj} {I : State → State → Prop} (h : On H I) (hf : Fine s I) {c : Calls} (hc : Bare c) (v : Val) {x : String}
    (hx : x ∈ ["_io", "_root", "data_packet_format", "_raw__m_data"]) :
    Rel s I I (fun w => ∃ r o, v = .obj r ∧ H[r]? = some o ∧ o.attrs.lookup x = some w) (getattr c v x) := by
  rw [getattr.eq_def]
  split
  · refine rel_bind (rel_get h hf _) fun o ho => ?_
    cases ha : o.attrs.lookup x with
    | none => exact (hc.property _ _ hx).rel hf
    | some w => exact rel_pure ⟨_, o, rfl, ho, ha⟩
  · simp at hx
  · exact rel_lost lost_attribute hf

/-- `self._io`. -/
theorem rel_io {H : List Obj} {I : State → State → Prop} (h : On H I) (hf : Fine s I) (P : Program) {c : Calls} (hc : Bare c) (env : Env) :
    Rel s I I (fun w => ∃ r o, env.lookup "self" = some (.obj r) ∧ H[r]? = some o ∧ o.attrs.lookup "_io" = some w) (eval P c env (.attr (.name "self") "_io")) := by
  rw [eval, eval]
  · refine rel_bind (J := I) (Q := fun v => env.lookup "self" = some v) ?_ fun v hv => ?_
    · cases env.lookup "self" with
      | none => exact rel_lost lost_attribute hf
      | some v => exact rel_pure rfl
    · refine (rel_getattr h hf hc v (by simp)).mono (fun _ _ h => h) (fun _ _ h => h) ?_
      rintro w ⟨r, o, rfl, h2, h3⟩
      exact ⟨r, o, hv, h2, h3⟩
  · intro e he; cases he

/-- A method of the value, if it is a stream. -/
theorem rel_invoke {I J : State → State → Prop} (hf : Fine s I) {Q : Val → Prop} {c : Calls} (hc : Bare c) (v : Val) {m : String} (args : List Val)
    (hm : m ∈ ["pos", "size", "seek", "read_u1", "read_u2be", "read_bytes"])
    (hu : ∀ k a, v = .io k → args = a.map .pv → Rel s I J Q (R.use k m a)) : Rel s I J Q (invoke c v m args) := by
  rw [invoke.eq_def]
  split
  · exact (hc.method _ m _ (List.mem_append_left ["decode"] hm)).rel hf
  · exact hu _ [] rfl rfl
  · exact hu _ [_] rfl rfl
  · simp at hm
  · exact rel_lost lost_attribute hf

theorem onStream_exists {α : Type} {rd : Rd α} {f : α → Val} {k : Nat} {σ τ : State} {v : Val} (e : (do return f (← onStream k rd) : M Val).run σ = .ok v τ) :
    k < τ.streams.length := by
  change Out.bind (onStream k rd σ) (fun x σ' => .ok (f x) σ') = .ok v τ at e
  unfold onStream after at e
  cases hs : σ.streams[k]? with
  | none => rw [hs] at e; cases e
  | some s =>
    rw [hs] at e
    dsimp only at e
    rcases hx : rd s with ⟨_ | x, s'⟩ <;> rw [hx] at e <;> cases e
    rw [List.length_set]
    exact (List.getElem?_eq_some_iff.1 hs).1

/-- If it succeeds, there is such a stream. -/
theorem io_exists (k : Nat) (m : String) (args : List Val) {σ τ : State} {v : Val} (e : (ioMethod k m args).run σ = .ok v τ) : k < τ.streams.length := by
  unfold ioMethod at e
  split at e
  case h_14 n =>
    by_cases h : n < 0
    · rw [if_pos h] at e; cases e
    · rw [if_neg h] at e; exact onStream_exists (rd := seekIo n.toNat) (f := fun _ => .pv .none) e
  case h_10 => exact onStream_exists (rd := alignToByte) (f := fun _ => .pv .none) e
  case h_15 => cases e
  all_goals exact onStream_exists e

theorem onStream_heap {rd : Rd α} {f : α → Val} {k : Nat} {σ τ : State} {v : Val} (e : (do return f (← onStream k rd) : M Val).run σ = .ok v τ) : τ.heap = σ.heap := by
  change Out.bind (onStream k rd σ) (fun x σ' => .ok (f x) σ') = .ok v τ at e
  unfold onStream after at e
  cases hs : σ.streams[k]? with
  | none => rw [hs] at e; cases e
  | some s =>
    rw [hs] at e
    dsimp only at e
    rcases hx : rd s with ⟨_ | x, s'⟩ <;> rw [hx] at e <;> cases e
    rfl

/-- What `self._io.m(...)` does to the memory: nothing but to a stream. -/
theorem io_heap (k : Nat) (m : String) (args : List Val) {σ τ : State} {v : Val} (e : (ioMethod k m args).run σ = .ok v τ) : τ.heap = σ.heap := by
  unfold ioMethod at e
  split at e
  case h_14 n =>
    by_cases h : n < 0
    · rw [if_pos h] at e; cases e
    · rw [if_neg h] at e; exact onStream_heap (rd := seekIo n.toNat) (f := fun _ => .pv .none) e
  case h_10 => exact onStream_heap (rd := alignToByte) (f := fun _ => .pv .none) e
  case h_15 => cases e
  all_goals exact onStream_heap e

/-- Another method than `seek`. -/
theorem rel_use_open {H : List Obj} {m : String} (hm : m ≠ "seek") (k : Nat) (a : List PyVal) : Rel s (Open H) (Open H) (fun _ => True) (R.use k m a) := by
  rintro σ _ ⟨rfl, h⟩
  have e : (R.use k m a).run11 σ = (R.use k m a).run σ := by
    show (ioMethod11 k m _ σ).bind _ = ((ioMethod k m _).run σ).bind _
    rw [io_same hm]
    rfl
  rw [e]
  have h2 : ∀ v τ, (R.use k m a).run σ = .ok v τ → τ.heap = σ.heap := fun v τ hv => by
    change ((ioMethod k m (a.map .pv)).run σ).bind (fun v τ => .ok v τ) = .ok v τ at hv
    rw [bind_ok] at hv
    exact io_heap _ _ _ hv
  revert h2
  rcases (R.use k m a).run σ with ⟨v, τ⟩ | ⟨e, τ⟩
  · exact fun h2 => ⟨rfl, trivial, rfl, (h2 v τ rfl).trans h⟩
  · exact fun _ => ⟨rfl, .inr rfl⟩

/-- The first `seek`. -/
theorem rel_use_seek {H : List Obj} (k : Nat) (a : List PyVal) : Rel s (Open H) (Dirty k H) (fun _ => True) (R.use k "seek" a) := by
  rintro σ _ ⟨rfl, h⟩
  show Agree s _ _ ((ioMethod11 k "seek" _ σ).bind fun v τ => .ok v τ) (((ioMethod k "seek" _).run σ).bind fun v τ => .ok v τ)
  rw [bind_ok, bind_ok]
  unfold ioMethod11
  rcases hv : (ioMethod k "seek" (a.map .pv)).run σ with ⟨v, τ⟩ | ⟨e, τ⟩
  · exact ⟨rfl, trivial, rfl, (io_heap _ _ _ hv).trans h, io_exists _ _ _ hv⟩
  · exact ⟨rfl, .inr rfl⟩

/-- The bits are forgotten. -/
def clear (s : Stream) : Stream := { s with bits := 0, bitsLeft := 0 }

theorem forget_eq (k : Nat) (σ : State) : forget k σ = ⟨σ.heap, σ.streams.modify k clear⟩ := rfl
theorem clear_clear (s : Stream) : clear (clear s) = clear s := rfl

/-- Reading that begins with `align_to_byte`. -/
def Aligns (rd : Rd α) : Prop := (∀ s, rd (clear s) = rd s) ∧ ∀ s a s', rd s = (.ok a, s') → clear s' = s'

theorem aligns_bytes (n : Nat) : Aligns (readBytes n) := by
  refine ⟨fun s => rfl, fun s a s' h => ?_⟩
  simp only [readBytes, alignToByte, readBytesNotAligned, bind, Rd.bind] at h
  split at h <;> cases h <;> rfl
theorem aligns_map {β : Type} {rd : Rd α} (h : Aligns rd) (f : α → β) : Aligns (do return f (← rd) : Rd β) := by
  refine ⟨fun s => ?_, fun s a s' e => ?_⟩
  · show Rd.bind rd _ _ = Rd.bind rd _ _
    unfold Rd.bind
    rw [h.1]
  · change Rd.bind rd (fun x => pure (f x)) s = _ at e
    unfold Rd.bind at e
    rcases hx : rd s with ⟨e' | x, s2⟩
    · rw [hx] at e; cases e
    · rw [hx] at e; cases e; exact h.2 s x _ hx
theorem aligns_bytesInt (n : Int) : Aligns (readBytesInt n) := by
  refine ⟨fun s => rfl, fun s a s' h => ?_⟩
  simp only [readBytesInt, alignToByte, bind, Rd.bind] at h
  split at h
  · cases h
  · unfold readBytesNotAligned at h
    dsimp only at h
    split at h <;> cases h <;> rfl

theorem modify_set (l : List Stream) (k : Nat) (s : Stream) (f : Stream → Stream) : (l.modify k f).set k s = l.set k s := by
  apply List.ext_getElem?
  intro i
  rw [List.getElem?_set, List.getElem?_set, List.getElem?_modify, List.length_modify]
  by_cases h : k = i <;> simp [h]
theorem set_modify (l : List Stream) (k : Nat) (s : Stream) (f : Stream → Stream) : (l.set k s).modify k f = l.set k (f s) := by
  apply List.ext_getElem?
  intro i
  rw [List.getElem?_set, List.getElem?_modify, List.getElem?_set]
  by_cases h : k = i
  · subst h
    by_cases hl : k < l.length <;> simp [hl]
  · simp [h]

theorem rel_onStream {H : List Obj} {rd : Rd α} (h : Aligns rd) (k : Nat) (f : α → Val) :
    ∀ σ : State, σ.heap = H → k < σ.streams.length → Agree s (Clean k H) (fun _ => True) ((do return f (← onStream k rd) : M Val).run (forget k σ)) ((do return f (← onStream k rd) : M Val).run σ) := by
  intro σ hH hk
  show Agree s _ _ (Out.bind (onStream k rd (forget k σ)) (fun x σ' => .ok (f x) σ')) (Out.bind (onStream k rd σ) (fun x σ' => .ok (f x) σ'))
  unfold onStream after
  rw [forget_eq]
  dsimp only
  rw [List.getElem?_modify_eq]
  cases hs : σ.streams[k]? with
  | none => exact absurd (List.getElem?_eq_none_iff.1 hs) (by omega)
  | some s =>
    dsimp only [Option.map, Functor.map]
    rw [h.1 s]
    rcases hx : rd s with ⟨e | x, s'⟩
    · dsimp only
      rw [modify_set]
      exact ⟨rfl, .inr rfl⟩
    · dsimp only
      rw [modify_set]
      refine ⟨rfl, trivial, rfl, hH, ?_⟩
      rw [forget_eq]
      dsimp only
      rw [set_modify, h.2 s x s' hx]

/-- Reading one byte, two bytes or some. -/
inductive Reads : String → List PyVal → Prop
  | u1 : Reads "read_u1" []
  | u2 : Reads "read_u2be" []
  | bytes (n : Int) : Reads "read_bytes" [.int n]

/-- Reading bytes, after `seek`. -/
theorem rel_use_read {H : List Obj} (k : Nat) {m : String} {a : List PyVal} (hm : Reads m a) : Rel s (Dirty k H) (Clean k H) (fun _ => True) (R.use k m a) := by
  rintro _ σ ⟨rfl, h, hk⟩
  have hns : m ≠ "seek" := by cases hm <;> decide
  show Agree s _ _ ((ioMethod11 k m _ (forget k σ)).bind fun v τ => .ok v τ) (((ioMethod k m _).run σ).bind fun v τ => .ok v τ)
  rw [bind_ok, bind_ok, io_same hns]
  cases hm with
  | u1 => exact rel_onStream (aligns_map (aligns_bytes 1) _) k _ σ h hk
  | u2 => exact rel_onStream (aligns_map (aligns_bytes 2) _) k _ σ h hk
  | bytes n => exact rel_onStream (aligns_bytesInt _) k _ σ h hk

/-- The `seek` back. -/
theorem rel_use_back {H : List Obj} (k : Nat) (a : List PyVal) : Rel s (Clean k H) Eq (fun _ => True) (R.use k "seek" a) := by
  rintro σ _ ⟨rfl, h, hc⟩
  show Agree s _ _ ((ioMethod11 k "seek" _ σ).bind fun v τ => .ok v τ) (((ioMethod k "seek" _).run σ).bind fun v τ => .ok v τ)
  rw [bind_ok, bind_ok]
  unfold ioMethod11
  rcases hv : (ioMethod k "seek" (a.map .pv)).run σ with ⟨v, τ⟩ | ⟨e, τ⟩
  · refine ⟨rfl, trivial, ?_⟩
    show (if "seek" = "seek" then forget k τ else τ) = τ
    rw [if_pos rfl]
    unfold ioMethod at hv
    split at hv
    case h_14 n _ _ =>
      by_cases hn : n < 0
      · rw [if_pos hn] at hv; cases hv
      · rw [if_neg hn] at hv
        change Out.bind (onStream k (seekIo n.toNat) σ) (fun x σ' => .ok (.pv .none) σ') = .ok v τ at hv
        unfold onStream after at hv
        cases hs : σ.streams[k]? with
        | none => rw [hs] at hv; cases hv
        | some s =>
          rw [hs] at hv
          cases hv
          have hcs : clear s = s := by
            have := congrArg (fun τ : State => τ.streams[k]?) hc
            rw [forget_eq] at this
            dsimp only at this
            rw [List.getElem?_modify_eq, hs] at this
            exact Option.some.inj this
          rw [forget_eq]
          dsimp only
          rw [set_modify]
          have e2 : clear { s with pos := n.toNat } = { s with pos := n.toNat } := by
            rcases s with ⟨b, p, i, l⟩
            injection hcs with _ _ h1 h2
            subst h1 h2
            rfl
          rw [e2]
    case h_15 => cases hv
    all_goals rename_i heq _; exact absurd heq (by decide)
  · exact ⟨rfl, .inr rfl⟩

/-- The place that is looked at: a number, or the size of the stream minus a number. -/
def isPlace : Expr → Bool
  | .int _ => true
  | .bin .sub (.call (.attr (.attr (.name s) io) m) []) (.int _) => s == "self" && io == "_io" && m == "size"
  | _ => false

/-- Reading one or two bytes, or some. -/
def isRead : Expr → Bool
  | .call (.attr (.attr (.name s) io) m) [] => s == "self" && io == "_io" && (m == "read_u1" || m == "read_u2be")
  | .call (.attr (.attr (.name s) io) m) [.int _] => s == "self" && io == "_io" && m == "read_bytes"
  | _ => false

/-- What is made of what is read. -/
def isUse : Expr → Bool
  | .call (.attr (.global g) f) [.enum _, e] => g == "KaitaiStream" && f == "resolve_enum" && isRead e
  | .call (.attr e f) [.str _] => f == "decode" && isRead e
  | e => isRead e

/-- The four statements. -/
def isPeek : Stmt → Stmt → Stmt → Stmt → Bool
  | .assign p (.call (.attr (.attr (.name s1) io1) m1) []), .expr (.call (.attr (.attr (.name s2) io2) m2) [e]), .setattr (.name s3) x v,
    .expr (.call (.attr (.attr (.name s4) io4) m4) [.name q]) =>
    p == "_pos" && s1 == "self" && io1 == "_io" && m1 == "pos" && s2 == "self" && io2 == "_io" && m2 == "seek" && isPlace e && s3 == "self" && x != "_io" && isUse v
      && s4 == "self" && io4 == "_io" && m4 == "seek" && q == "_pos"
  | _, _, _, _ => false

theorem isPeek_shape {a b c d : Stmt} (h : isPeek a b c d = true) : ∃ e x v, a = .assign "_pos" (onIo "pos" []) ∧ b = .expr (onIo "seek" [e]) ∧
    c = .setattr (.name "self") x v ∧ d = .expr (onIo "seek" [.name "_pos"]) ∧ isPlace e = true ∧ x ≠ "_io" ∧ isUse v = true := by
  unfold isPeek at h
  split at h
  · simp only [Bool.and_eq_true, beq_iff_eq, bne_iff_ne] at h
    obtain ⟨⟨⟨⟨⟨⟨⟨⟨⟨⟨⟨⟨⟨⟨rfl, rfl⟩, rfl⟩, rfl⟩, rfl⟩, rfl⟩, rfl⟩, h1⟩, rfl⟩, h2⟩, h3⟩, rfl⟩, rfl⟩, rfl⟩, rfl⟩ := h
    exact ⟨_, _, _, rfl, rfl, rfl, rfl, h1, h2, h3⟩
  · cases h

theorem rel_still {I : State → State → Prop} (hf : Fine s I) (m : M α) (h : ∀ e σ, m.run ⟨[], []⟩ = .raise e σ → Lost e) : Rel s I I (fun _ => True) (still m) := by
  unfold still
  split
  · exact rel_pure trivial
  · rename_i h1; exact rel_lost (h _ _ h1) hf

theorem onIo_eval (P : Program) (c : Calls) (env : Env) (m : String) (args : List Expr) :
    eval P c env (onIo m args) = (do let v ← eval P c env (.attr (.name "self") "_io"); invoke c v m (← evals P c env args)) := by
  rw [onIo, eval.eq_def]

/-- The object, and its stream. -/
structure Here (H : List Obj) (env : Env) (r k : Nat) : Prop where
  self : env.lookup "self" = some (.obj r)
  io : ∃ o, H[r]? = some o ∧ o.attrs.lookup "_io" = some (.io k)

theorem io_here (P : Program) (c : Calls) {H : List Obj} {env : Env} {r k : Nat} (he : Here H env r k) (σ : State) (hσ : σ.heap = H) :
    (eval P c env (.attr (.name "self") "_io")).run σ = .ok (.io k) σ ∧ (eval P c env (.attr (.name "self") "_io")).run11 σ = .ok (.io k) σ := by
  obtain ⟨h4, o, h5, h6⟩ := he
  have e : eval P c env (.attr (.name "self") "_io") = (R.get r >>= fun a => match a.attrs.lookup "_io" with | some v => pure v | none => c.property r "_io") := by
    rw [eval, eval, h4]
    · rfl
    · intro e he; cases he
  have hf : (Py.fetch r).run σ = .ok o σ := by
    show (match σ.heap[r]? with | some o => _ | none => _) = _
    rw [hσ, h5]
  rw [e, run_bind, run11_bind]
  have h1 : (R.get r).run σ = .ok o σ := by show Out.bind ((Py.fetch r).run σ) _ = _; rw [hf]; rfl
  have h2 : (R.get r).run11 σ = .ok o σ := by show Out.bind ((Py.fetch r).run σ) _ = _; rw [hf]; rfl
  rw [h1, h2]
  show (R.run (match o.attrs.lookup "_io" with | some v => pure v | none => c.property r "_io") σ) = _ ∧ (R.run11 (match o.attrs.lookup "_io" with | some v => pure v | none => c.property r "_io") σ) = _
  rw [h6]
  exact ⟨rfl, rfl⟩

theorem rel_io_here {H : List Obj} {I : State → State → Prop} (h : On H I) (P : Program) (c : Calls) {env : Env} {r k : Nat} (he : Here H env r k) :
    Rel s I I (· = .io k) (eval P c env (.attr (.name "self") "_io")) := by
  intro σ' σ hi
  obtain ⟨h1, h2⟩ := h _ _ hi
  rw [(io_here P c he σ h2).1, (io_here P c he σ' h1).2]
  exact ⟨rfl, rfl, hi⟩

/-- `self._io.m(...)`, where the stream and the arguments are known. -/
theorem rel_onIo_known {H : List Obj} {I J : State → State → Prop} {Q : Val → Prop} (h : On H I) (P : Program) {c : Calls} {env : Env} {r k : Nat}
    (he : Here H env r k) {m : String} {args : List Expr} {l : List Val} (ha : Rel s I I (· = l) (evals P c env args)) (hu : Rel s I J Q (invoke c (.io k) m l)) :
    Rel s I J Q (eval P c env (onIo m args)) := by
  rw [onIo_eval]
  refine rel_bind (rel_io_here h P c he) fun v hv => rel_bind ha fun l hl => ?_
  rw [hv, hl]
  exact hu

/-- `self._io.m(...)`, where the stream is known. -/
theorem rel_onIo {H : List Obj} {I J : State → State → Prop} (hf : Fine s I) {Q : Val → Prop} (h : On H I) (P : Program) {c : Calls} (hc : Bare c) {env : Env} {r k : Nat}
    (he : Here H env r k) {m : String} (hm : m ∈ ["pos", "size", "seek", "read_u1", "read_u2be", "read_bytes"]) (args : List Expr)
    (ha : Rel s I I (fun _ => True) (evals P c env args)) (hu : ∀ a, Rel s I J Q (R.use k m a)) : Rel s I J Q (eval P c env (onIo m args)) := by
  rw [onIo_eval]
  refine rel_bind (rel_io_here h P c he) fun v hv => rel_bind ha fun l _ => rel_invoke hf hc v l hm fun k' a h1 _ => ?_
  rw [hv] at h1
  cases h1
  exact hu a

theorem rel_none {I : State → State → Prop} (P : Program) (c : Calls) (env : Env) : Rel s I I (fun _ => True) (evals P c env []) := by
  rw [evals]; exact rel_pure trivial

theorem rel_one {I : State → State → Prop} (P : Program) (c : Calls) (env : Env) (e : Expr) (h : Rel s I I (fun _ => True) (eval P c env e)) :
    Rel s I I (fun _ => True) (evals P c env [e]) := by
  rw [evals]; exact rel_bind h fun _ _ => rel_bind (rel_none P c env) fun _ _ => rel_pure trivial

theorem rel_int {I : State → State → Prop} (P : Program) (c : Calls) (env : Env) (n : Int) : Rel s I I (fun _ => True) (eval P c env (.int n)) := by
  rw [eval]; exact rel_pure trivial

theorem rel_name {I : State → State → Prop} (hf : Fine s I) (P : Program) (c : Calls) (env : Env) (x : String) : Rel s I I (fun v => env.lookup x = some v) (eval P c env (.name x)) := by
  rw [eval]
  cases env.lookup x with
  | none => exact rel_lost lost_attribute hf
  | some v => exact rel_pure rfl

theorem rel_place {H : List Obj} (P : Program) {c : Calls} (hc : Bare c) {env : Env} {r k : Nat} (he : Here H env r k) {e : Expr} (h : isPlace e = true) :
    Rel s (Open H) (Open H) (fun _ => True) (eval P c env e) := by
  unfold isPlace at h
  split at h
  · exact rel_int _ _ _ _
  · simp only [Bool.and_eq_true, beq_iff_eq] at h
    obtain ⟨⟨rfl, rfl⟩, rfl⟩ := h
    rw [eval]
    refine rel_bind (rel_onIo (fine_open H) (on_open H) P hc he (by simp) [] (rel_none _ _ _) fun a => rel_use_open (by simp) k a) fun x _ => ?_
    refine rel_bind (rel_int _ _ _ _) fun y _ => rel_still (fine_open H) _ fun e σ hr => ?_
    unfold BinOp.apply at hr
    split at hr <;> first | contradiction | (cases hr; done) | (cases hr; exact lost_attribute)
  · cases h

theorem rel_read {H : List Obj} (P : Program) {c : Calls} {env : Env} {r k : Nat} (he : Here H env r k) {e : Expr} (h : isRead e = true) :
    Rel s (Dirty k H) (Clean k H) (fun _ => True) (eval P c env e) := by
  unfold isRead at h
  split at h
  · simp only [Bool.and_eq_true, Bool.or_eq_true, beq_iff_eq] at h
    obtain ⟨⟨rfl, rfl⟩, rfl | rfl⟩ := h
    · exact rel_onIo_known (on_dirty k H) P he (l := []) (by rw [evals]; exact rel_pure rfl) (rel_use_read k .u1)
    · exact rel_onIo_known (on_dirty k H) P he (l := []) (by rw [evals]; exact rel_pure rfl) (rel_use_read k .u2)
  · rename_i n
    simp only [Bool.and_eq_true, beq_iff_eq] at h
    obtain ⟨⟨rfl, rfl⟩, rfl⟩ := h
    exact rel_onIo_known (on_dirty k H) P he (l := [.pv (.int n)]) (by rw [evals, evals, eval]; exact rel_pure rfl) (rel_use_read k (.bytes n))
  · cases h

theorem call_eval (P : Program) (c : Calls) (env : Env) (e : Expr) {m : String} (hm : m ≠ "resolve_enum") (args : List Expr) :
    eval P c env (.call (.attr e m) args) = (do let v ← eval P c env e; invoke c v m (← evals P c env args)) := by
  rw [eval.eq_def]
  split
  all_goals first | (rename_i heq; cases heq; done) | (rename_i heq _; cases heq; done) | skip
  all_goals rename_i heq
  all_goals cases heq
  · exact absurd rfl hm
  · rfl
  · rename_i h _; exact (h _ _ rfl).elim

theorem expr_exec (P : Program) (c : Calls) (env : Env) (e : Expr) {m : String} (hm : m ≠ "append") (args : List Expr) :
    exec P c (.expr (.call (.attr e m) args)) env = (do let _ ← eval P c env (.call (.attr e m) args); return .next env) := by
  rw [exec.eq_def]
  split
  all_goals first | (rename_i heq; cases heq; done) | (rename_i heq _; cases heq; done) | skip
  all_goals rename_i heq
  all_goals cases heq
  · exact absurd rfl hm
  · rfl

theorem rel_decode {H : List Obj} {k : Nat} {c : Calls} (hc : Bare c) (v : Val) (args : List Val) :
    Rel s (Clean k H) (Clean k H) (fun _ => True) (invoke c v "decode" args) := by
  have hio : ∀ n a, Rel s (Clean k H) (Clean k H) (fun _ => True) (R.use n "decode" a) := fun n a => by
    have e : ∀ a, ioMethod n "decode" a = Py.raise .attribute := fun a => by
      unfold ioMethod
      split
      case h_15 => rfl
      all_goals contradiction
    rintro σ _ ⟨rfl, _⟩
    show Agree s _ _ ((ioMethod11 n "decode" _ σ).bind _) (((ioMethod n "decode" _).run σ).bind _)
    rw [io_same (by decide), e]
    exact ⟨rfl, .inr rfl⟩
  rw [invoke.eq_def]
  split
  · exact (hc.method _ _ _ (by simp)).rel (fine_clean _ _)
  · exact hio _ []
  · exact hio _ [_]
  · cases codec _ with
    | none => exact rel_lost lost_attribute (fine_clean _ _)
    | some f =>
      show Rel s _ _ _ (match f _ with | some s => _ | none => _)
      split
      · exact rel_pure trivial
      · rintro σ _ ⟨rfl, _⟩; exact ⟨rfl, .inr rfl⟩
  · exact rel_lost lost_attribute (fine_clean _ _)

theorem rel_use {H : List Obj} (P : Program) {c : Calls} (hc : Bare c) {env : Env} {r k : Nat} (he : Here H env r k) {e : Expr} (h : isUse e = true) :
    Rel s (Dirty k H) (Clean k H) (fun _ => True) (eval P c env e) := by
  unfold isUse at h
  split at h
  · simp only [Bool.and_eq_true, beq_iff_eq] at h
    obtain ⟨⟨rfl, rfl⟩, h⟩ := h
    rw [eval]
    refine rel_bind (rel_read P he h) fun v _ => ?_
    generalize List.find? _ _ = o
    cases o with
    | none => exact rel_lost lost_attribute (fine_clean _ _)
    | some d =>
      match v with
      | .pv (.int (.ofNat v)) => exact rel_pure trivial
      | .pv (.int (.negSucc v)) => exact rel_lost lost_attribute (fine_clean _ _)
      | .pv .none | .pv (.bool _) | .pv (.str _) | .pv (.bytes _) | .pv (.enum _ _) | .pv (.list _) | .pv (.dict _) | .pv (.struct _ _) | .pv .stream | .pv .backref
      | .obj _ | .io _ | .file _ | .list _ => exact rel_lost lost_attribute (fine_clean _ _)
  · simp only [Bool.and_eq_true, beq_iff_eq] at h
    obtain ⟨rfl, h⟩ := h
    rw [call_eval _ _ _ _ (by decide)]
    exact rel_bind (rel_read P he h) fun v _ => rel_bind (rel_one _ _ _ _ (by rw [eval]; exact rel_pure trivial)) fun a _ => rel_decode hc v a
  · exact rel_read P he h

theorem Here.step {H : List Obj} {env : Env} {r k : Nat} (he : Here H env r k) (v : Val) : Here H (upsert "_pos" v env) r k :=
  ⟨(lookup_env (by decide)).trans he.self, he.io⟩

/-- The four statements, and what comes after them. -/
theorem same_peek (P : Program) {c : Calls} (hc : Bare c) {a b d e : Stmt} (h : isPeek a b d e = true) {rest : List Stmt} (hr : ∀ env, Same (execs P c rest env)) (env : Env) :
    Same (execs P c (a :: b :: d :: e :: rest) env) := by
  obtain ⟨pl, x, v, rfl, rfl, rfl, rfl, h1, h2, h3⟩ := isPeek_shape h
  refine Rel.same fun σ => ?_
  have key : Rel true (Open σ.heap) Eq (fun _ => True) (execs P c (.assign "_pos" (onIo "pos" []) :: .expr (onIo "seek" [pl]) :: .setattr (.name "self") x v ::
      .expr (onIo "seek" [.name "_pos"]) :: rest) env) := by
    generalize σ.heap = H
    rw [execs, exec]
    refine rel_bind (J := Open H) (Q := fun f => ∃ r k p, Here H env r k ∧ f = .next (upsert "_pos" p env)) ?_ ?_
    · rw [onIo_eval]
      refine rel_bind (J := Open H) (Q := fun _ => ∃ r k, Here H env r k) ?_ fun p hp => rel_pure (by obtain ⟨r, k, hp⟩ := hp; exact ⟨r, k, p, hp, rfl⟩)
      refine rel_bind (rel_io (on_open H) (fine_open H) P hc env) fun w hw => rel_bind (rel_none _ _ _) fun l _ => rel_invoke (fine_open H) hc w l (by simp) fun k a hk _ => ?_
      subst hk
      obtain ⟨r, o, h4, h5, h6⟩ := hw
      exact (rel_use_open (by decide) k a).mono (fun _ _ h => h) (fun _ _ h => h) fun _ _ => ⟨r, k, h4, o, h5, h6⟩
    · rintro f ⟨r, k, p, he, rfl⟩
      have he2 := he.step p
      generalize upsert "_pos" p env = env2 at he2
      show Rel true _ _ _ (execs P c _ env2)
      rw [execs]
      refine rel_bind (J := Dirty k H) (Q := fun f => f = .next env2) ?_ ?_
      · rw [onIo, expr_exec _ _ _ _ (by decide)]
        · refine rel_bind (rel_onIo (fine_open H) (on_open H) P hc he2 (by simp) _ (rel_one _ _ _ _ (rel_place P hc he2 h1)) fun a => rel_use_seek k a) fun _ _ => rel_pure rfl
      · rintro f rfl
        show Rel true _ _ _ (execs P c _ env2)
        rw [execs]
        refine rel_bind (J := fun σ' σ => ∃ H', Clean k H' σ' σ ∧ Here H' env2 r k) (Q := fun f => f = .next env2) ?_ ?_
        · rw [exec]
          refine rel_bind (rel_use P hc he2 h3) fun w _ => rel_bind (rel_name (fine_clean k H) P c env2 "self") fun u hu => ?_
          rw [he2.self] at hu
          cases hu
          show Rel true _ _ _ (R.put r x w >>= fun _ => pure (Flow.next env2))
          refine rel_bind (J := fun σ' σ => ∃ H', Clean k H' σ' σ ∧ Here H' env2 r k) (Q := fun _ => True) ?_ fun _ _ => rel_pure rfl
          rintro σ _ ⟨rfl, hH, hk⟩
          show Agree true _ _ (((Py.store r x w).run σ).bind _) (((Py.store r x w).run σ).bind _)
          obtain ⟨hs, o, ho, hio⟩ := he2
          unfold Py.store M.run
          dsimp only
          rw [hH, ho]
          refine ⟨rfl, trivial, H.set r ⟨o.cls, upsert x w o.attrs⟩, ⟨rfl, rfl, ?_⟩, hs, ⟨o.cls, upsert x w o.attrs⟩, ?_, ?_⟩
          · have := congrArg State.streams hk
            rw [forget_eq] at this ⊢
            exact congrArg (State.mk _) this
          · have hl : r < H.length := by
              rcases Nat.lt_or_ge r H.length with hl | hl
              · exact hl
              · rw [List.getElem?_eq_none hl] at ho; cases ho
            rw [List.getElem?_set_self hl]
          · exact (lookup_env (fun e => h2 e.symm)).trans hio
        · rintro f rfl
          show Rel true _ _ _ (execs P c _ env2)
          rw [execs]
          refine rel_bind (J := Eq) (Q := fun f => f = .next env2) ?_ ?_
          · rintro σ' σ ⟨H', hcl, he3⟩
            refine (?_ : Rel true (Clean k H') Eq _ _) σ' σ hcl
            rw [onIo, expr_exec _ _ _ _ (by decide)]
            · refine rel_bind (rel_onIo (fine_clean k H') (on_clean k H') P hc he3 (by simp) _ (rel_one _ _ _ _ ((rel_name (fine_clean k H') P c env2 "_pos").mono (fun _ _ h => h) (fun _ _ h => h) fun _ _ => trivial))
                fun a => rel_use_back k a) fun _ _ => rel_pure rfl
          · rintro f rfl
            exact (hr env2).rel
  exact key.mono (by rintro _ _ ⟨rfl, rfl⟩; exact ⟨rfl, rfl⟩) (fun _ _ h => h) fun _ h => h

end Dmr.Py.Threads.Version
