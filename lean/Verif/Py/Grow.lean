import Verif.Py.PropertySpec
import Verif.Py.Distinct
import Verif.Py.Source
/-
Whatever the decoders do, and in whatever memory: no object loses an attribute or gets another value for one, but for what properties remember.
-/

set_option autoImplicit false

namespace Dmr.Py

/-- From `σ` to `τ` no object is lost, and none has changed its class or any attribute `x` that it has, or that is not for properties to remember
their values in, except where `E` allows it; no stream is lost, and none has changed its bytes. -/
structure Grows (E : Nat → String → Prop) (σ τ : State) : Prop where
  objects : ∀ (q : Nat) (o : Obj), σ.heap[q]? = some o → ∃ o' : Obj, τ.heap[q]? = some o' ∧ o'.cls = o.cls ∧
    ∀ x, ¬ E q x → ((o.attrs.lookup x).isSome ∨ x ∉ memos) → o'.attrs.lookup x = o.attrs.lookup x
  streams : ∀ (j : Nat) (s : Stream), σ.streams[j]? = some s → ∃ s' : Stream, τ.streams[j]? = some s' ∧ s'.buf = s.buf

variable {α β : Type} {E F : Nat → String → Prop}

theorem Grows.refl (σ : State) : Grows E σ σ := ⟨fun _ o h => ⟨o, h, rfl, fun _ _ _ => rfl⟩, fun _ s h => ⟨s, h, rfl⟩⟩

theorem Grows.trans {σ τ υ : State} (a : Grows E σ τ) (b : Grows E τ υ) : Grows E σ υ := by
  refine ⟨fun q o h => ?_, fun j s h => ?_⟩
  · obtain ⟨o1, h1, c1, l1⟩ := a.objects q o h
    obtain ⟨o2, h2, c2, l2⟩ := b.objects q o1 h1
    refine ⟨o2, h2, c2.trans c1, fun x hx hp => ?_⟩
    have e := l1 x hx hp
    rw [l2 x hx (e ▸ hp), e]
  · obtain ⟨s1, h1, e1⟩ := a.streams j s h
    obtain ⟨s2, h2, e2⟩ := b.streams j s1 h1
    exact ⟨s2, h2, e2.trans e1⟩

theorem Grows.weaken {σ τ : State} (h : Grows E σ τ) (hE : ∀ q x, E q x → F q x) : Grows F σ τ :=
  ⟨fun q o ho => by
    obtain ⟨o', h1, h2, h3⟩ := h.objects q o ho
    exact ⟨o', h1, h2, fun x hx => h3 x fun e => hx (hE q x e)⟩, h.streams⟩

/-- It changes only what `E` allows, and its result is as `Q` says. -/
def Safe (E : Nat → String → Prop) (Q : α → Prop) (m : M α) : Prop :=
  ∀ σ, Grows E σ (m.run σ).state ∧ ∀ a τ, m.run σ = .ok a τ → Q a

/-- Any result. -/
abbrev Any : α → Prop := fun _ => True

theorem Safe.weaken {Q R : α → Prop} {m : M α} (h : Safe E Q m) (hE : ∀ q x, E q x → F q x) (hQ : ∀ a, Q a → R a) : Safe F R m :=
  fun σ => ⟨(h σ).1.weaken hE, fun a τ e => hQ a ((h σ).2 a τ e)⟩

theorem safe_pure {Q : α → Prop} {a : α} (h : Q a) : Safe E Q (pure a) :=
  fun σ => ⟨.refl σ, fun b τ e => by cases e; exact h⟩

theorem safe_raise {Q : α → Prop} (e : PyErr) : Safe E Q (raise e : M α) := fun σ => ⟨.refl σ, fun b τ e => by cases e⟩

theorem safe_bind {Q : α → Prop} {R : β → Prop} {m : M α} {f : α → M β} (hm : Safe E Q m) (hf : ∀ a, Q a → Safe E R (f a)) : Safe E R (m >>= f) := by
  intro σ
  have e : (m >>= f).run σ = Out.bind (m.run σ) fun a σ' => (f a).run σ' := rfl
  have h := hm σ
  rw [e]
  cases hr : m.run σ with
  | ok a τ =>
    rw [hr] at h
    have h2 := hf a (h.2 a τ rfl) τ
    exact ⟨h.1.trans h2.1, h2.2⟩
  | raise e τ => rw [hr] at h; exact ⟨h.1, fun a τ e => by cases e⟩

theorem safe_ite {Q : α → Prop} {c : Prop} [Decidable c] {a b : M α} (ha : Safe E Q a) (hb : Safe E Q b) : Safe E Q (if c then a else b) := by
  split
  · exact ha
  · exact hb

theorem safe_fetch (r : Nat) : Safe E Any (fetch r) := by
  intro σ
  refine ⟨?_, fun _ _ _ => trivial⟩
  show Grows E σ (fetch r σ).state
  unfold fetch
  split <;> exact .refl σ

/-- It does not change the bytes. -/
def KeepsBytes (r : Rd α) : Prop := ∀ s, (r s).2.buf = s.buf

theorem safe_onStream (k : Nat) {r : Rd α} (hr : KeepsBytes r) : Safe E Any (onStream k r) := by
  intro σ
  refine ⟨?_, fun _ _ _ => trivial⟩
  show Grows E σ (onStream k r σ).state
  unfold onStream after
  split
  · rename_i s hs
    have hb := hr s
    have : ∀ s', s'.buf = s.buf → Grows E σ ⟨σ.heap, σ.streams.set k s'⟩ := by
      intro s' e
      refine ⟨fun _ o h => ⟨o, h, rfl, fun _ _ _ => rfl⟩, fun j t h => ?_⟩
      by_cases hj : k = j
      · subst hj
        rw [hs] at h
        cases h
        exact ⟨s', by rw [List.getElem?_set_self (List.getElem?_eq_some_iff.1 hs).1], e⟩
      · exact ⟨t, by rw [List.getElem?_set_ne hj]; exact h, rfl⟩
    rcases hx : r s with ⟨_ | a, s'⟩ <;> rw [hx] at hb <;> exact this s' hb
  · exact .refl σ

theorem grow_lookup_upsert (x : String) (v : Val) (y : String) : ∀ l : List (String × Val), (upsert x v l).lookup y = if y = x then some v else l.lookup y
  | [] => by
    rw [upsert, List.lookup_cons]
    by_cases e : y = x
    · subst e; simp
    · rw [if_neg e, show (y == x) = false by simpa using e]
  | (z, w) :: l => by
    rw [upsert]
    split
    · rename_i e
      subst e
      rw [List.lookup_cons, List.lookup_cons]
      by_cases e : y = x
      · subst e; simp
      · rw [if_neg e, show (y == x) = false by simpa using e]
    · rename_i e
      rw [List.lookup_cons, List.lookup_cons, grow_lookup_upsert x v y l]
      by_cases e' : y = z
      · subst e'
        have e : ¬ y = x := fun h => e h.symm
        simp [e]
      · rw [show (y == z) = false by simpa using e']

theorem safe_store {r : Nat} {x : String} (h : E r x) (v : Val) : Safe E Any (store r x v) := by
  intro σ
  refine ⟨?_, fun _ _ _ => trivial⟩
  show Grows E σ (store r x v σ).state
  unfold store
  split
  · rename_i o ho
    refine ⟨fun q p hp => ?_, fun _ s h => ⟨s, h, rfl⟩⟩
    by_cases hq : r = q
    · subst hq
      rw [ho] at hp
      cases hp
      refine ⟨_, List.getElem?_set_self (List.getElem?_eq_some_iff.1 ho).1, rfl, fun y hy _ => ?_⟩
      dsimp only
      rw [grow_lookup_upsert, if_neg]
      rintro rfl
      exact hy h
    · exact ⟨p, by show (σ.heap.set r _)[q]? = _; rw [List.getElem?_set_ne hq]; exact hp, rfl, fun _ _ _ => rfl⟩
  · exact .refl σ

theorem safe_alloc (cls : String) : Safe E Any (alloc cls) := by
  intro σ
  refine ⟨⟨fun q o h => ⟨o, ?_, rfl, fun _ _ _ => rfl⟩, fun _ s h => ⟨s, h, rfl⟩⟩, fun _ _ _ => trivial⟩
  show (σ.heap ++ [_])[q]? = _
  rw [List.getElem?_append_left (List.getElem?_eq_some_iff.1 h).1]
  exact h

theorem safe_open (b : Bytes) : Safe E Any (open_ b) := by
  intro σ
  refine ⟨⟨fun q o h => ⟨o, h, rfl, fun _ _ _ => rfl⟩, fun j s h => ⟨s, ?_, rfl⟩⟩, fun _ _ _ => trivial⟩
  show (σ.streams ++ [_])[j]? = _
  rw [List.getElem?_append_left (List.getElem?_eq_some_iff.1 h).1]
  exact h

/-- Goes through what is written with these. -/
macro "safe" : tactic => `(tactic|
  repeat' (first
    | exact safe_pure trivial
    | exact safe_raise _
    | exact safe_fetch _
    | assumption
    | (refine safe_bind (Q := Any) ?_ (fun _ _ => ?_))
    | (refine safe_ite ?_ ?_)
    | split))

theorem safe_bin (op : BinOp) (a b : Val) : Safe E Any (op.apply a b) := by unfold BinOp.apply; safe
theorem safe_cmp (op : CmpOp) (a b : Val) : Safe E Any (op.apply a b) := by unfold CmpOp.apply; safe


theorem keepsBytes_bind {r : Rd α} {f : α → Rd β} (hr : KeepsBytes r) (hf : ∀ a, KeepsBytes (f a)) : KeepsBytes (r >>= f) := by
  intro s
  have h := hr s
  show (Rd.bind r f s).2.buf = _
  unfold Rd.bind
  rcases hx : r s with ⟨_ | a, s'⟩
  · rw [hx] at h; exact h
  · rw [hx] at h; exact (hf a s').trans h

theorem keepsBytes_pure (a : α) : KeepsBytes (pure a : Rd α) := fun _ => rfl
theorem keepsBytes_align : KeepsBytes alignToByte := fun _ => rfl
theorem keepsBytes_notAligned (n : Nat) : KeepsBytes (readBytesNotAligned n) := by
  intro s
  unfold readBytesNotAligned
  dsimp only
  split <;> rfl
theorem keepsBytes_bytes (n : Nat) : KeepsBytes (readBytes n) := keepsBytes_bind keepsBytes_align fun _ => keepsBytes_notAligned n
theorem keepsBytes_bytesInt (n : Int) : KeepsBytes (readBytesInt n) := by
  refine keepsBytes_bind keepsBytes_align fun _ => ?_
  split
  · exact fun _ => rfl
  · exact keepsBytes_notAligned _
theorem keepsBytes_full : KeepsBytes readBytesFull := keepsBytes_bind keepsBytes_align fun _ _ => rfl
theorem keepsBytes_bits (n : Nat) : KeepsBytes (readBitsIntBe n) := by
  intro s
  unfold readBitsIntBe
  dsimp only
  split
  · have h := keepsBytes_notAligned ((((n : Int) - (s.bitsLeft : Int)) - 1) / 8 + 1).toNat { s with bitsLeft := ((-((n : Int) - (s.bitsLeft : Int))) % 8).toNat }
    split
    · rename_i e s2 hx; rw [hx] at h; exact h
    · rename_i c s2 hx; rw [hx] at h; exact h
  · rfl

theorem safe_ioMethod (k : Nat) (m : String) (args : List Val) : Safe E Any (ioMethod k m args) := by
  have h1 : Safe E Any (onStream k readU1) := safe_onStream k (keepsBytes_bind (keepsBytes_bytes _) fun _ => keepsBytes_pure _)
  have h2 : Safe E Any (onStream k readU2be) := safe_onStream k (keepsBytes_bind (keepsBytes_bytes _) fun _ => keepsBytes_pure _)
  have h3 : Safe E Any (onStream k readU2le) := safe_onStream k (keepsBytes_bind (keepsBytes_bytes _) fun _ => keepsBytes_pure _)
  have h4 : Safe E Any (onStream k readU4be) := safe_onStream k (keepsBytes_bind (keepsBytes_bytes _) fun _ => keepsBytes_pure _)
  have h5 : Safe E Any (onStream k readU4le) := safe_onStream k (keepsBytes_bind (keepsBytes_bytes _) fun _ => keepsBytes_pure _)
  have h6 : Safe E Any (onStream k readS2be) := safe_onStream k (keepsBytes_bind (keepsBytes_bytes _) fun _ => keepsBytes_pure _)
  have h7 : ∀ n, Safe E Any (onStream k (readBitsIntBe n)) := fun n => safe_onStream k (keepsBytes_bits n)
  have h8 : ∀ n, Safe E Any (onStream k (readBytesInt n)) := fun n => safe_onStream k (keepsBytes_bytesInt n)
  have h9 : Safe E Any (onStream k readBytesFull) := safe_onStream k keepsBytes_full
  have h10 : Safe E Any (onStream k alignToByte) := safe_onStream k keepsBytes_align
  have h11 : Safe E Any (onStream k isEof) := safe_onStream k fun _ => rfl
  have h12 : Safe E Any (onStream k posIo) := safe_onStream k fun _ => rfl
  have h13 : Safe E Any (onStream k sizeIo) := safe_onStream k fun _ => rfl
  have h14 : ∀ n, Safe E Any (onStream k (seekIo n)) := fun n => safe_onStream k fun _ => rfl
  unfold ioMethod
  safe
  all_goals first | exact h7 _ | exact h8 _ | exact h14 _

theorem safe_builtin (g : String) (args : List Val) : Safe E Any (builtin g args) := by
  unfold builtin
  safe
  exact safe_open _

/-- The methods that the classes have. They change their object. -/
def ownMethods : List String := ["__init__", "_read"]

/-- What properties may always overwrite. -/
def rawMemo (_ : Nat) (x : String) : Prop := x = "_raw__m_data"

/-- What a method may change besides: the attributes `allow` of the object `r`. -/
def Own (r : Nat) (allow : String → Bool) (q : Nat) (x : String) : Prop := x = "_raw__m_data" ∨ q = r ∧ allow x = true

/-- So do the calls. -/
structure CallsSafe (c : Calls) : Prop where
  construct : ∀ n args, Safe rawMemo Any (c.construct n args)
  method : ∀ r m args, m ∉ ownMethods → Safe rawMemo Any (c.method r m args)
  read : ∀ r args, Safe (Own r fun _ => true) Any (c.method r "_read" args)
  property : ∀ r x, Safe rawMemo Any (c.property r x)

theorem raw_own {r : Nat} {allow : String → Bool} : ∀ q x, rawMemo q x → Own r allow q x := fun _ _ h => .inl h

theorem safe_getattr {c : Calls} (hc : CallsSafe c) (v : Val) (x : String) : Safe rawMemo Any (getattr c v x) := by
  have := hc.property
  unfold getattr
  safe
  exact this _ _

theorem safe_invoke {c : Calls} (hc : CallsSafe c) (v : Val) (m : String) (hm : m ∉ ownMethods) (args : List Val) : Safe rawMemo Any (invoke c v m args) := by
  have := hc.method
  unfold invoke
  split
  · exact this _ _ _ hm
  · exact safe_ioMethod _ _ _
  · safe
  · safe

mutual
/-- The expression calls no method that changes its object. -/
def Expr.calm : Expr → Bool
  | .none | .bool _ | .int _ | .str _ | .bytes _ | .emptyList | .name _ | .global _ | .cls _ | .enum _ => true
  | .attr e _ => e.calm
  | .call (.attr e m) args => e.calm && !(ownMethods.contains m) && calmAll args
  | .call (.cls _) args | .call (.global _) args => calmAll args
  | .call _ _ => false
  | .bin _ a b | .cmp _ a b | .and a b | .or a b => a.calm && b.calm
  | .not e => e.calm
  | .ifExp t a b => t.calm && a.calm && b.calm
/-- All of them. -/
def calmAll : List Expr → Bool
  | [] => true
  | e :: l => e.calm && calmAll l
end

theorem safe_all (P : Program) {c : Calls} {env : Env} : ∀ {l : List Expr}, (∀ e ∈ l, Safe rawMemo Any (eval P c env e)) → Safe rawMemo Any (evals P c env l)
  | [], _ => by rw [evals]; exact safe_pure trivial
  | e :: rest, h => by
    rw [evals]
    exact safe_bind (h _ (List.mem_cons_self ..)) fun _ _ => safe_bind (safe_all P fun a ha => h a (List.mem_cons_of_mem _ ha)) fun _ _ => safe_pure trivial

mutual
theorem safe_eval (P : Program) {c : Calls} (hc : CallsSafe c) (env : Env) (e : Expr) (he : e.calm = true) : Safe rawMemo Any (eval P c env e) := by
  match e with
  | .none | .bool _ | .int _ | .str _ | .bytes _ | .emptyList => rw [eval]; exact safe_pure trivial
  | .name x => rw [eval]; safe
  | .global _ | .cls _ | .enum _ => rw [eval]; exact safe_raise _
  | .attr e x =>
    have ih := safe_eval P hc env e (by simpa [Expr.calm] using he)
    have hg := safe_getattr hc
    rw [eval.eq_def]
    split
    all_goals first | (rename_i heq; cases heq; done) | (rename_i heq _; cases heq; done) | skip
    all_goals rename_i heq
    all_goals cases heq
    · safe
    · exact safe_bind ih fun _ _ => hg _ _
  | .call f args =>
    have hargs : calmAll args = true := by
      cases f <;> first | (simp [Expr.calm] at he; done) | (simp [Expr.calm] at he; first | exact he | exact he.2)
    have hs := safe_evals P hc env args hargs
    have hf : ∀ e m, f = .attr e m → Safe rawMemo Any (eval P c env e) ∧ m ∉ ownMethods := by
      match f with
      | .attr e m =>
        simp only [Expr.calm, Bool.and_eq_true] at he
        have := safe_eval P hc env e he.1.1
        intro e' m' h
        cases h
        exact ⟨this, by simpa using he.1.2⟩
      | .none | .bool _ | .int _ | .str _ | .bytes _ | .emptyList | .name _ | .global _ | .cls _ | .enum _ | .call _ _ | .bin _ _ _ | .cmp _ _ _
      | .not _ | .and _ _ | .or _ _ | .ifExp _ _ _ => intro e' m' h; cases h
    have hall := safe_all P hs
    rw [eval.eq_def]
    split
    all_goals first | (rename_i heq; cases heq; done) | (rename_i heq _; cases heq; done) | skip
    all_goals rename_i heq
    all_goals cases heq
    · exact safe_bind hall fun _ _ => hc.construct _ _
    · exact safe_bind hall fun _ _ => safe_builtin _ _
    · refine safe_bind (hs _ (List.mem_cons_of_mem _ (List.mem_singleton.2 rfl))) fun _ _ => ?_
      safe
    · exact safe_bind (hf _ _ rfl).1 fun _ _ => safe_bind hall fun _ _ => safe_invoke hc _ _ (hf _ _ rfl).2 _
    · exact safe_raise _
  | .bin op a b =>
    simp only [Expr.calm, Bool.and_eq_true] at he
    rw [eval]
    exact safe_bind (safe_eval P hc env a he.1) fun _ _ => safe_bind (safe_eval P hc env b he.2) fun _ _ => safe_bin _ _ _
  | .cmp op a b =>
    simp only [Expr.calm, Bool.and_eq_true] at he
    rw [eval]
    exact safe_bind (safe_eval P hc env a he.1) fun _ _ => safe_bind (safe_eval P hc env b he.2) fun _ _ => safe_cmp _ _ _
  | .not a => rw [eval]; exact safe_bind (safe_eval P hc env a (by simpa [Expr.calm] using he)) fun _ _ => safe_pure trivial
  | .and a b =>
    simp only [Expr.calm, Bool.and_eq_true] at he
    rw [eval]
    exact safe_bind (safe_eval P hc env a he.1) fun _ _ => safe_ite (safe_eval P hc env b he.2) (safe_pure trivial)
  | .or a b =>
    simp only [Expr.calm, Bool.and_eq_true] at he
    rw [eval]
    exact safe_bind (safe_eval P hc env a he.1) fun _ _ => safe_ite (safe_pure trivial) (safe_eval P hc env b he.2)
  | .ifExp t a b =>
    simp only [Expr.calm, Bool.and_eq_true] at he
    rw [eval]
    exact safe_bind (safe_eval P hc env t he.1.1) fun _ _ => safe_ite (safe_eval P hc env a he.1.2) (safe_eval P hc env b he.2)
theorem safe_evals (P : Program) {c : Calls} (hc : CallsSafe c) (env : Env) (l : List Expr) (hl : calmAll l = true) :
    ∀ e ∈ l, Safe rawMemo Any (eval P c env e) := by
  match l with
  | [] => intro e h; cases h
  | e :: rest =>
    simp only [calmAll, Bool.and_eq_true] at hl
    have h1 := safe_eval P hc env e hl.1
    have h2 := safe_evals P hc env rest hl.2
    intro a ha
    rcases List.mem_cons.1 ha with rfl | ha
    · exact h1
    · exact h2 a ha
end

/-- What the statements of a function may do: assign these attributes of `self`, call `self._read()`, return. -/
structure Rules where
  allow : String → Bool
  read : Bool
  ret : Bool

/-- `self.x.append(e)`, `self._read()`, or an expression. -/
def Expr.fits (A : Rules) : Expr → Bool
  | .call (.attr o m) args =>
    if m = "append" then
      match o, args with
      | .attr (.name y) x, [e] => y == "self" && A.allow x && e.calm
      | _, _ => false
    else if m = "_read" then
      match o, args with
      | .name y, [] => y == "self" && A.read
      | _, _ => false
    else (Expr.call (.attr o m) args).calm
  | e => e.calm

mutual
/-- The statement does no more than that. -/
def Stmt.fits (A : Rules) : Stmt → Bool
  | .assign x e => x != "self" && e.calm
  | .setattr (.name "self") x e => A.allow x && e.calm
  | .setattr _ _ _ => false
  | .expr e => e.fits A
  | .if_ t a b => t.calm && fitAll A a && fitAll A b
  | .for_ x it body => x != "self" && it.calm && fitAll A body
  | .while_ t body => t.calm && fitAll A body
  | .break_ | .pass_ => true
  | .raise_ (.call _ args) => calmAll args
  | .raise_ _ => true
  | .return_ e => A.ret && e.calm
/-- All of them. -/
def fitAll (A : Rules) : List Stmt → Bool
  | [] => true
  | st :: l => st.fits A && fitAll A l
end

/-- `self` is still the object `r`; only where it is allowed, the function has returned. -/
def FlowOk (A : Rules) (r : Nat) : Flow → Prop
  | .next env | .brk env => env.lookup "self" = some (.obj r)
  | .ret _ => A.ret = true

theorem lookup_env {x y : String} {v : Val} {env : Env} (h : y ≠ x) : (upsert x v env).lookup y = env.lookup y := by
  rw [grow_lookup_upsert, if_neg h]

theorem safe_forLoop {A : Rules} {r : Nat} {body : Env → M Flow} {x : String} (hx : x ≠ "self")
    (hb : ∀ env : Env, env.lookup "self" = some (.obj r) → Safe E (FlowOk A r) (body env)) :
    ∀ (l : List Val) (env : Env), env.lookup "self" = some (.obj r) → Safe E (FlowOk A r) (forLoop body x l env)
  | [], _, h => by rw [forLoop]; exact safe_pure h
  | v :: rest, env, h => by
    rw [forLoop]
    refine safe_bind (hb _ (by rw [lookup_env hx.symm]; exact h)) fun f hf => ?_
    cases f with
    | next env => exact safe_forLoop hx hb rest env hf
    | brk env => exact safe_pure hf
    | ret v => exact safe_pure hf

theorem safe_whileLoop {A : Rules} {r : Nat} {c : Env → M Bool} {body : Env → M Flow} (hc : ∀ env, Safe E Any (c env))
    (hb : ∀ env : Env, env.lookup "self" = some (.obj r) → Safe E (FlowOk A r) (body env)) :
    ∀ (n : Nat) (env : Env), env.lookup "self" = some (.obj r) → Safe E (FlowOk A r) (whileLoop c body n env)
  | 0, env, h => by
    rw [whileLoop]
    refine safe_bind (hc _) fun t _ => safe_ite ?_ (safe_pure h)
    exact safe_raise _
  | n + 1, env, h => by
    rw [whileLoop]
    refine safe_bind (hc _) fun t _ => safe_ite ?_ (safe_pure h)
    refine safe_bind (hb _ h) fun f hf => ?_
    cases f with
    | next env => exact safe_whileLoop hc hb n env hf
    | brk env => exact safe_pure hf
    | ret v => exact safe_pure hf

theorem safe_loopBound (env : Env) : Safe E Any (loopBound env) := by
  intro σ
  refine ⟨?_, fun _ _ _ => trivial⟩
  show Grows E σ (loopBound env σ).state
  unfold loopBound
  repeat' split
  all_goals exact .refl σ

theorem safe_self (P : Program) (c : Calls) {env : Env} {r : Nat} (h : env.lookup "self" = some (.obj r)) :
    Safe E (fun v => v = .obj r) (eval P c env (.name "self")) := by
  rw [eval, h]
  exact safe_pure rfl

mutual
theorem safe_exec (P : Program) {c : Calls} (hc : CallsSafe c) {A : Rules} {r : Nat}
    (hr : A.read = true → ∀ args, Safe (Own r A.allow) Any (c.method r "_read" args)) (st : Stmt) (hst : st.fits A = true) (env : Env)
    (h : env.lookup "self" = some (.obj r)) : Safe (Own r A.allow) (FlowOk A r) (exec P c st env) := by
  have he : ∀ (env : Env) (e : Expr), e.calm = true → Safe (Own r A.allow) Any (eval P c env e) :=
    fun env e he => (safe_eval P hc env e he).weaken raw_own fun _ h => h
  have hs := fun {env : Env} => @safe_self (Own r A.allow) P c env r
  match st with
  | .assign x e =>
    simp only [Stmt.fits, Bool.and_eq_true, bne_iff_ne] at hst
    rw [exec]
    exact safe_bind (he _ _ hst.2) fun _ _ => safe_pure (by show (upsert _ _ _).lookup _ = _; rw [lookup_env hst.1.symm]; exact h)
  | .setattr o x e =>
    unfold Stmt.fits at hst
    split at hst
    all_goals first | (rename_i heq; cases heq; done) | (cases hst; done) | skip
    rename_i heq
    cases heq
    simp only [Bool.and_eq_true] at hst
    rw [exec]
    refine safe_bind (he _ _ hst.2) fun _ _ => safe_bind (hs h) fun v hv => ?_
    subst hv
    exact safe_bind (safe_store (.inr ⟨rfl, hst.1⟩) _) fun _ _ => safe_pure h
  | .expr e =>
    rw [exec.eq_def]
    split
    all_goals first | (rename_i heq; cases heq; done) | (rename_i heq _; cases heq; done) | skip
    · rename_i o x e heq
      cases heq
      have : o = .name "self" ∧ A.allow x = true ∧ e.calm = true := by
        unfold Stmt.fits Expr.fits at hst
        dsimp only at hst
        rw [if_pos rfl] at hst
        cases o <;> first | (cases hst; done) | skip
        simpa [and_assoc] using hst
      obtain ⟨rfl, ha, hx⟩ := this
      refine safe_bind (hs h) fun v hv => ?_
      subst hv
      refine safe_bind (safe_fetch _) fun _ _ => ?_
      split
      · refine safe_bind (he _ _ hx) fun v _ => safe_bind (safe_fetch _) fun _ _ => ?_
        split
        · exact safe_bind (safe_store (.inr ⟨rfl, ha⟩) _) fun _ _ => safe_pure h
        · exact safe_raise _
      · exact safe_raise _
    · rename_i hno heq
      cases heq
      unfold Stmt.fits Expr.fits at hst
      split at hst
      · rename_i o m args
        split at hst
        · rename_i hm
          subst hm
          split at hst
          · exact absurd rfl (hno _ _ _)
          · cases hst
        · split at hst
          · rename_i hm
            subst hm
            split at hst
            · rename_i y
              simp only [Bool.and_eq_true, beq_iff_eq] at hst
              obtain ⟨rfl, ha⟩ := hst
              refine safe_bind (Q := Any) ?_ fun _ _ => safe_pure h
              rw [eval]
              · refine safe_bind (hs h) fun v hv => ?_
                subst hv
                rw [evals]
                exact safe_bind (safe_pure (Q := fun a => a = []) rfl) fun a e => by subst e; exact hr ha _
              · intro _ _ h; cases h
            · cases hst
          · exact safe_bind (he _ _ hst) fun _ _ => safe_pure h
      · exact safe_bind (he _ _ hst) fun _ _ => safe_pure h
  | .if_ t a b =>
    simp only [Stmt.fits, Bool.and_eq_true] at hst
    rw [exec]
    exact safe_bind (he _ _ hst.1.1) fun _ _ => safe_ite (safe_execs P hc hr a hst.1.2 env h) (safe_execs P hc hr b hst.2 env h)
  | .for_ x it body =>
    simp only [Stmt.fits, Bool.and_eq_true, bne_iff_ne] at hst
    have hb := safe_execs P hc hr body hst.2
    rw [exec]
    refine safe_bind (he _ _ hst.1.2) fun v _ => ?_
    split
    · exact safe_forLoop hst.1.1 hb _ _ h
    · exact safe_raise _
  | .while_ t body =>
    simp only [Stmt.fits, Bool.and_eq_true] at hst
    have hb := safe_execs P hc hr body hst.2
    rw [exec]
    exact safe_bind (safe_loopBound _) fun n _ => safe_whileLoop (fun env => safe_bind (he _ _ hst.1) fun _ _ => safe_pure trivial) hb _ _ h
  | .break_ => rw [exec]; exact safe_pure h
  | .pass_ => rw [exec]; exact safe_pure h
  | .raise_ e =>
    rw [exec.eq_def]
    split
    all_goals first | (rename_i heq; cases heq; done) | (rename_i heq _; cases heq; done) | skip
    · rename_i heq
      cases heq
      simp only [Stmt.fits, calmAll, Bool.and_eq_true] at hst
      exact safe_bind (he _ _ hst.1) fun _ _ => safe_bind (he _ _ hst.2.1) fun _ _ => safe_bind (he _ _ hst.2.2.1) fun _ _ => safe_raise _
    · exact safe_raise _
  | .return_ e =>
    simp only [Stmt.fits, Bool.and_eq_true] at hst
    rw [exec]
    exact safe_bind (he _ _ hst.2) fun _ _ => safe_pure hst.1
theorem safe_execs (P : Program) {c : Calls} (hc : CallsSafe c) {A : Rules} {r : Nat}
    (hr : A.read = true → ∀ args, Safe (Own r A.allow) Any (c.method r "_read" args)) (l : List Stmt) (hl : fitAll A l = true) (env : Env)
    (h : env.lookup "self" = some (.obj r)) : Safe (Own r A.allow) (FlowOk A r) (execs P c l env) := by
  match l with
  | [] => rw [execs]; exact safe_pure h
  | st :: rest =>
    simp only [fitAll, Bool.and_eq_true] at hl
    have h1 := safe_exec P hc hr st hl.1 env h
    have h2 := safe_execs P hc hr rest hl.2
    rw [execs]
    refine safe_bind h1 fun f hf => ?_
    cases f with
    | next env => exact h2 _ hf
    | brk env => exact safe_pure hf
    | ret v => exact safe_pure hf
end

/-- A function of an object, by these rules. -/
def Function.fits (A : Rules) (f : Function) : Bool := f.params.head? == some "self" && fitAll A f.body

theorem lookup_params {f : Function} (h : f.params.head? = some "self") (r : Nat) (args : List Val) :
    (f.params.zip ((.obj r :: args) ++ List.replicate (f.params.length - (Val.obj r :: args).length) (.pv .none))).lookup "self" = some (.obj r) := by
  obtain ⟨ps, body⟩ := f
  cases ps with
  | nil => cases h
  | cons p ps =>
    cases h
    rw [List.cons_append, List.zip_cons_cons, List.lookup_cons]
    simp

theorem safe_call (P : Program) {c : Calls} (hc : CallsSafe c) {A : Rules} {r : Nat}
    (hr : A.read = true → ∀ args, Safe (Own r A.allow) Any (c.method r "_read" args)) {f : Function} (hf : f.fits A = true) (args : List Val) :
    Safe (Own r A.allow) Any (f.call P c (.obj r :: args)) := by
  unfold Function.fits at hf
  simp only [Bool.and_eq_true, beq_iff_eq] at hf
  unfold Function.call
  refine safe_bind (safe_execs P hc hr _ hf.2 _ (lookup_params hf.1 r args)) fun v _ => ?_
  split <;> exact safe_pure trivial

/-- In a constructor. -/
def inInit : Rules := ⟨fun _ => true, true, true⟩
/-- In `_read`. -/
def inRead : Rules := ⟨fun _ => true, false, true⟩
/-- In a property, after it was found that nothing is remembered. -/
def inProperty (memo : String) : Rules := ⟨fun x => x == memo || x == "_raw__m_data", false, false⟩

/-- How a property is written: `if hasattr(self, memo): return self.memo`, statements, `return getattr(self, memo, None)`. -/
def Function.remembers (memo : String) (f : Function) : Bool :=
  match f.params, f.body with
  | ["self"], .if_ (.call (.global "hasattr") [.name "self", .str m]) [.return_ (.attr (.name "self") m')] [] :: rest =>
    m == memo && m' == memo &&
      (match rest.getLast? with
        | some (.return_ (.call (.global "getattr") [.name "self", .str m, .none])) => m == memo
        | _ => false) && fitAll (inProperty memo) rest.dropLast
  | _, _ => false

/-- How classes are written. -/
def ClassDef.regular (d : ClassDef) : Bool :=
  d.methods.all (fun m => if m.1 = "__init__" then m.2.fits inInit else m.1 == "_read" && m.2.fits inRead) &&
  d.properties.all fun p => p.2.remembers ("_m_" ++ p.1) && memos.contains ("_m_" ++ p.1) && !(memos.contains p.1)

theorem library_regular : ∀ d ∈ library.classes, d.regular = true := by
  have : library.classes.all ClassDef.regular = true := by decide +kernel
  exact List.all_eq_true.1 this

/-- `if hasattr(self, memo): return self.memo` -/
def guard (memo : String) : Stmt := .if_ (.call (.global "hasattr") [.name "self", .str memo]) [.return_ (.attr (.name "self") memo)] []
/-- `return getattr(self, memo, None)` -/
def final (memo : String) : Stmt := .return_ (.call (.global "getattr") [.name "self", .str memo, .none])

theorem remembers_shape {memo : String} {f : Function} (h : f.remembers memo = true) :
    ∃ mid, f = ⟨["self"], guard memo :: (mid ++ [final memo])⟩ ∧ fitAll (inProperty memo) mid = true := by
  obtain ⟨ps, body⟩ := f
  unfold Function.remembers at h
  split at h
  · rename_i m m' rest hp hb
    dsimp only at hp hb
    subst hp hb
    simp only [Bool.and_eq_true, beq_iff_eq] at h
    obtain ⟨⟨⟨rfl, rfl⟩, h2⟩, h3⟩ := h
    split at h2
    · rename_i m hm
      simp only [beq_iff_eq] at h2
      subst h2
      obtain ⟨l, rfl⟩ := List.getLast?_eq_some_iff.1 hm
      rw [List.dropLast_concat] at h3
      exact ⟨l, rfl, h3⟩
    · cases h2
  · cases h

theorem grow_execs_append (P : Program) (c : Calls) (b : List Stmt) : ∀ (a : List Stmt) (env : Env),
    execs P c (a ++ b) env = (execs P c a env >>= fun f => match f with | .next env => execs P c b env | f => pure f)
  | [], env => by rw [execs]; rfl
  | st :: a, env => by
    rw [List.cons_append, execs, execs]
    funext σ
    show Out.bind (exec P c st env σ) _ = Out.bind (Out.bind (exec P c st env σ) _) _
    rcases exec P c st env σ with ⟨f, τ⟩ | ⟨e, τ⟩
    · cases f with
      | next env' => exact congrFun (grow_execs_append P c b a env') τ
      | brk _ => rfl
      | ret _ => rfl
    · rfl

theorem run_bind {m : M α} {f : α → M β} {σ : State} : (m >>= f).run σ = Out.bind (m.run σ) fun a σ' => (f a).run σ' := rfl

theorem run_guard (P : Program) (c : Calls) {memo : String} {env : Env} {r : Nat} (h : env.lookup "self" = some (.obj r)) {σ : State} {o : Obj}
    (ho : σ.heap[r]? = some o) :
    (exec P c (guard memo) env).run σ = match o.attrs.lookup memo with
      | some v => .ok (.ret v) σ
      | none => .ok (.next env) σ := by
  have hf : (fetch r).run σ = .ok o σ := by unfold M.run fetch; rw [ho]
  have hs : (eval P c env (.name "self")).run σ = .ok (.obj r) σ := by rw [eval, h]; rfl
  have hb : (eval P c env (.call (.global "hasattr") [.name "self", .str memo])).run σ = .ok (.pv (.bool (o.attrs.lookup memo).isSome)) σ := by
    rw [eval, run_bind]
    have : (evals P c env [.name "self", .str memo]).run σ = .ok [.obj r, .pv (.str memo.toList)] σ := by
      rw [evals, run_bind, hs]; rfl
    rw [this]
    show (builtin "hasattr" [.obj r, .pv (.str memo.toList)]).run σ = _
    rw [show builtin "hasattr" [.obj r, .pv (.str memo.toList)] =
      (fetch r >>= fun o => pure (.pv (.bool (o.attrs.lookup (String.ofList memo.toList)).isSome))) from rfl, run_bind, hf, String.ofList_toList]
    rfl
  unfold guard
  rw [exec, run_bind, hb]
  show (if truthy (.pv (.bool (o.attrs.lookup memo).isSome)) = true then _ else _ : M Flow).run σ = _
  cases hl : o.attrs.lookup memo with
  | none => rfl
  | some v =>
    show (execs P c [.return_ (.attr (.name "self") memo)] env).run σ = _
    rw [execs, run_bind, exec, run_bind, eval]
    · rw [run_bind, hs]
      show (((getattr c (.obj r) memo).run σ).bind _).bind _ = _
      unfold getattr
      dsimp only
      rw [run_bind, hf]
      show (((match o.attrs.lookup memo with | some v => pure v | none => c.property r memo : M Val).run σ).bind _).bind _ = _
      rw [hl]
      rfl
    · intro _ h; cases h

theorem run_final (P : Program) (c : Calls) {memo : String} {env : Env} {r : Nat} (h : env.lookup "self" = some (.obj r)) (σ : State) :
    (exec P c (final memo) env).run σ = match σ.heap[r]? with
      | some o => .ok (.ret ((o.attrs.lookup memo).getD (.pv .none))) σ
      | none => .raise .attribute σ := by
  have hs : (eval P c env (.name "self")).run σ = .ok (.obj r) σ := by rw [eval, h]; rfl
  have : (evals P c env [.name "self", .str memo, .none]).run σ = .ok [.obj r, .pv (.str memo.toList), .pv .none] σ := by
    rw [evals, run_bind, hs]; rfl
  unfold final
  rw [exec, run_bind, eval, run_bind, this]
  show ((builtin "getattr" [.obj r, .pv (.str memo.toList), .pv .none]).run σ).bind _ = _
  rw [show builtin "getattr" [.obj r, .pv (.str memo.toList), .pv .none] =
    (fetch r >>= fun o => pure ((o.attrs.lookup (String.ofList memo.toList)).getD (.pv .none))) from rfl, run_bind, String.ofList_toList]
  cases ho : σ.heap[r]? with
  | none => rw [show (fetch r).run σ = .raise .attribute σ by unfold M.run fetch; rw [ho]]; rfl
  | some o => rw [show (fetch r).run σ = .ok o σ by unfold M.run fetch; rw [ho]]; rfl


/-- What a property does: it returns what is remembered and changes nothing; or nothing is remembered, and unless it returns None it returns
what it remembers then. -/
theorem run_property (P : Program) {c : Calls} (hc : CallsSafe c) {memo : String} {f : Function} (hf : f.remembers memo = true) {r : Nat}
    {σ : State} {o : Obj} (ho : σ.heap[r]? = some o) :
    (∃ v, o.attrs.lookup memo = some v ∧ (f.call P c [.obj r]).run σ = .ok v σ) ∨
    (o.attrs.lookup memo = none ∧ Grows (Own r (inProperty memo).allow) σ ((f.call P c [.obj r]).run σ).state ∧
      ∀ v τ, (f.call P c [.obj r]).run σ = .ok v τ → v = .pv .none ∨ ∃ o', τ.heap[r]? = some o' ∧ o'.attrs.lookup memo = some v) := by
  obtain ⟨mid, rfl, hmid⟩ := remembers_shape hf
  have hself : (([("self", .obj r)] : Env)).lookup "self" = some (.obj r) := by simp
  have hcall : (Function.call P c ⟨["self"], guard memo :: (mid ++ [final memo])⟩ [.obj r]).run σ =
      ((execs P c (guard memo :: (mid ++ [final memo])) [("self", .obj r)]).run σ).bind fun f σ' =>
        (match f with | .ret v => pure v | _ => pure (.pv .none) : M Val).run σ' := rfl
  rw [hcall, execs, run_bind, run_guard P c hself ho]
  cases hl : o.attrs.lookup memo with
  | some v => exact .inl ⟨v, rfl, rfl⟩
  | none =>
    refine .inr ⟨rfl, ?_⟩
    show Grows _ σ (Out.bind ((execs P c (mid ++ [final memo]) [("self", .obj r)]).run σ) _).state ∧
      ∀ v τ, Out.bind ((execs P c (mid ++ [final memo]) [("self", .obj r)]).run σ) _ = .ok v τ → _
    have hm := safe_execs P hc (A := inProperty memo) (r := r) (fun h => by cases h) mid hmid [("self", .obj r)] hself σ
    rw [grow_execs_append, run_bind]
    cases hx : (execs P c mid [("self", .obj r)]).run σ with
    | raise e τ => rw [hx] at hm; exact ⟨hm.1, fun v τ h => by cases h⟩
    | ok fl τ =>
      rw [hx] at hm
      have hfl := hm.2 fl τ rfl
      cases fl with
      | ret v => cases hfl
      | brk env => exact ⟨hm.1, fun v υ h => .inl (by cases h; rfl)⟩
      | next env =>
        show Grows _ σ (Out.bind ((execs P c [final memo] env).run τ) _).state ∧
          ∀ v υ, Out.bind ((execs P c [final memo] env).run τ) _ = .ok v υ → _
        have hfl : env.lookup "self" = some (.obj r) := hfl
        rw [execs, run_bind, run_final P c hfl]
        cases hr : τ.heap[r]? with
        | none => exact ⟨hm.1, fun v υ h => by cases h⟩
        | some o' =>
          refine ⟨hm.1, fun v υ h => ?_⟩
          have h : Out.ok ((o'.attrs.lookup memo).getD (.pv .none)) τ = .ok v υ := h
          cases h
          cases hl' : o'.attrs.lookup memo with
          | none => exact .inl rfl
          | some v => exact .inr ⟨o', hr, hl'⟩

theorem safe_discard {m : M α} (hm : Safe E Any m) : Safe E Any (discard m) := by
  intro σ
  refine ⟨?_, fun _ _ _ => trivial⟩
  have := (hm σ).1
  show Grows E σ (discard m σ).state
  unfold discard
  have e : m σ = m.run σ := rfl
  rw [e]
  cases hr : m.run σ with
  | ok a τ => rw [hr] at this; exact this
  | raise e τ =>
    rw [hr] at this
    refine ⟨fun q o ho => ?_, this.streams⟩
    obtain ⟨o', h1, h2⟩ := this.objects q o ho
    refine ⟨o', ?_, h2⟩
    show (τ.heap.take σ.heap.length)[q]? = _
    rw [List.getElem?_take, if_pos (List.getElem?_eq_some_iff.1 ho).1]
    exact h1

theorem lookup_mem {β : Type} {l : List (String × β)} {x : String} {b : β} (h : l.lookup x = some b) : (x, b) ∈ l := by
  induction l with
  | nil => cases h
  | cons a l ih =>
    rw [List.lookup_cons] at h
    split at h
    · rename_i e
      cases h
      rw [show x = a.1 by simpa using e]
      exact List.mem_cons_self ..
    · exact List.mem_cons_of_mem _ (ih h)

/-- Every class of it is regular. -/
def Regular (P : Program) : Prop := ∀ d ∈ P.classes, d.regular = true

theorem method_regular {P : Program} (hP : Regular P) {cls m : String} {f : Function} (h : P.method cls m = some f) :
    (m = "__init__" ∧ f.fits inInit = true) ∨ (m = "_read" ∧ f.fits inRead = true) := by
  unfold Program.method Program.class at h
  obtain ⟨d, hd, hf⟩ := Option.bind_eq_some_iff.1 h
  have := hP d (List.mem_of_find?_eq_some hd)
  unfold ClassDef.regular at this
  simp only [Bool.and_eq_true, List.all_eq_true] at this
  have := this.1 _ (lookup_mem hf)
  dsimp only at this
  split at this
  · exact .inl ⟨by assumption, this⟩
  · simp only [Bool.and_eq_true, beq_iff_eq] at this
    exact .inr this

theorem property_regular {P : Program} (hP : Regular P) {cls x : String} {f : Function} (h : P.property cls x = some f) :
    f.remembers ("_m_" ++ x) = true ∧ "_m_" ++ x ∈ memos ∧ x ∉ memos := by
  unfold Program.property Program.class at h
  obtain ⟨d, hd, hf⟩ := Option.bind_eq_some_iff.1 h
  have := hP d (List.mem_of_find?_eq_some hd)
  unfold ClassDef.regular at this
  simp only [Bool.and_eq_true, List.all_eq_true] at this
  have := this.2 _ (lookup_mem hf)
  simp only at this
  exact ⟨this.1.1, by simpa using this.1.2, by simpa using this.2⟩

/-- Nothing that is called changes anything but what properties remember. -/
theorem calls_safe {P : Program} (hP : Regular P) : ∀ n, CallsSafe (calls P n)
  | 0 => ⟨fun _ _ => safe_raise _, fun _ _ _ _ => safe_raise _, fun _ _ => safe_raise _, fun _ _ => safe_raise _⟩
  | n + 1 => by
    have ih := calls_safe hP n
    refine ⟨fun cls args => ?_, fun r m args hm => ?_, fun r args => ?_, fun r x => ?_⟩
    · refine safe_discard ?_
      cases hf : P.method cls "__init__" with
      | none => exact safe_raise _
      | some f =>
        rcases method_regular hP hf with ⟨-, h⟩ | ⟨h, -⟩
        · intro σ
          refine ⟨?_, fun _ _ _ => trivial⟩
          have hc := (safe_call P ih (A := inInit) (r := σ.heap.length) (fun _ args => ih.read _ args) h args) ⟨σ.heap ++ [⟨cls, []⟩], σ.streams⟩
          have e : ∀ (g : Val → M Val), (∀ v τ, (g v).run τ = .ok (.obj σ.heap.length) τ) →
              (Out.bind ((f.call P (calls P n) (.obj σ.heap.length :: args)).run ⟨σ.heap ++ [⟨cls, []⟩], σ.streams⟩) fun a τ => (g a).run τ).state =
              ((f.call P (calls P n) (.obj σ.heap.length :: args)).run ⟨σ.heap ++ [⟨cls, []⟩], σ.streams⟩).state := by
            intro g hg
            cases (f.call P (calls P n) (.obj σ.heap.length :: args)).run ⟨σ.heap ++ [⟨cls, []⟩], σ.streams⟩ with
            | ok a τ => show ((g a).run τ).state = τ; rw [hg]; rfl
            | raise _ _ => rfl
          have e := e (fun _ => pure (.obj σ.heap.length)) fun _ _ => rfl
          show Grows rawMemo σ (Out.bind ((f.call P (calls P n) (.obj σ.heap.length :: args)).run ⟨σ.heap ++ [⟨cls, []⟩], σ.streams⟩) fun _ τ =>
            (pure (Val.obj σ.heap.length) : M Val).run τ).state
          rw [e]
          refine ⟨fun q o ho => ?_, hc.1.streams⟩
          have hq := (List.getElem?_eq_some_iff.1 ho).1
          obtain ⟨o', h1, h2, h3⟩ := hc.1.objects q o (by show (σ.heap ++ _)[q]? = _; rw [List.getElem?_append_left hq]; exact ho)
          refine ⟨o', h1, h2, fun x hx => h3 x fun he => ?_⟩
          rcases he with he | he
          · exact hx he
          · omega
        · exact absurd h (by decide)
    · refine safe_bind (safe_fetch _) fun o _ => ?_
      cases hf : P.method o.cls m with
      | none => exact safe_raise _
      | some f =>
        rcases method_regular hP hf with ⟨h, -⟩ | ⟨h, -⟩ <;> exact absurd (by rw [h]; decide) hm
    · refine safe_bind (safe_fetch _) fun o _ => ?_
      cases hf : P.method o.cls "_read" with
      | none => exact safe_raise _
      | some f =>
        rcases method_regular hP hf with ⟨h, -⟩ | ⟨-, h⟩
        · exact absurd h (by decide)
        · exact safe_call P ih (A := inRead) (fun h => by cases h) h args
    · intro σ
      refine ⟨?_, fun _ _ _ => trivial⟩
      cases ho : σ.heap[r]? with
      | none =>
        show Grows rawMemo σ (Out.bind ((fetch r).run σ) _).state
        rw [show (fetch r).run σ = .raise .attribute σ by unfold M.run fetch; rw [ho]]
        exact .refl σ
      | some o =>
        show Grows rawMemo σ (Out.bind ((fetch r).run σ) _).state
        rw [show (fetch r).run σ = .ok o σ by unfold M.run fetch; rw [ho]]
        show Grows rawMemo σ ((match P.property o.cls x with | some f => f.call P (calls P n) [.obj r] | none => raise .attribute : M Val).run σ).state
        cases hf : P.property o.cls x with
        | none => exact .refl σ
        | some f =>
          obtain ⟨h1, h2, -⟩ := property_regular hP hf
          rcases run_property P ih h1 ho with ⟨v, -, h⟩ | ⟨hn, h, -⟩
          · rw [h]; exact .refl σ
          · refine ⟨fun q p hp => ?_, h.streams⟩
            obtain ⟨p', a, b, d⟩ := h.objects q p hp
            refine ⟨p', a, b, fun y hy hs => d y (fun he => ?_) hs⟩
            rcases he with he | ⟨rfl, he⟩
            · exact hy he
            · have he : (y == "_m_" ++ x || y == "_raw__m_data") = true := he
              simp only [Bool.or_eq_true, beq_iff_eq] at he
              rcases he with rfl | he
              · rw [ho] at hp
                cases hp
                rw [hn] at hs
                rcases hs with hs | hs
                · cases hs
                · exact hs h2
              · exact hy he

end Dmr.Py
