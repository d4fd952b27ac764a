import Verif.Py.ThreadsErase
/-
Two versions of the package kaitaistruct. The model of its streams (Verif/Runtime) is that of version 0.10, where `seek` leaves the bits alone
that were read ahead; in version 0.11 it forgets them.
-/

set_option autoImplicit false
set_option linter.unusedSectionVars false

namespace Dmr.Py.Threads

variable {α β : Type}

/-- The bits that were read ahead of the stream `n` are forgotten. -/
def forget (n : Nat) (σ : State) : State := ⟨σ.heap, σ.streams.modify n fun s => { s with bits := 0, bitsLeft := 0 }⟩

/-- The methods of `KaitaiStream` in kaitaistruct 0.11: `seek` is `align_to_byte` too. -/
def ioMethod11 (n : Nat) (m : String) (args : List Val) (σ : State) : Out Val :=
  match (ioMethod n m args).run σ with
  | .ok v τ => .ok v (if m = "seek" then forget n τ else τ)
  | .raise e τ => .raise e τ

/-- `R.run` with kaitaistruct 0.11. -/
def R.run11 : R α → State → Out α
  | .done a, σ => .ok a σ
  | .raise e, σ => .raise e σ
  | .fetch r k, σ => ((Py.fetch r).run σ).bind fun o σ => (k o).run11 σ
  | .store r x v k, σ => ((Py.store r x v).run σ).bind fun _ σ => k.run11 σ
  | .alloc c k, σ => ((Py.alloc c).run σ).bind fun n σ => (k n).run11 σ
  | .stream b k, σ => ((Py.open_ b).run σ).bind fun n σ => (k n).run11 σ
  | .io n m a k, σ => (ioMethod11 n m (a.map .pv) σ).bind fun v σ => (k v).run11 σ
  | .size n k, σ => ((lengthOf n).run σ).bind fun l σ => (k l).run11 σ

namespace Version

theorem run11_bind (p : R α) (f : α → R β) (σ : State) : (p >>= f).run11 σ = (p.run11 σ).bind fun a τ => (f a).run11 τ := by
  show (p.bind f).run11 σ = _
  induction p generalizing σ with
  | done a => rfl
  | raise e => rfl
  | fetch r k ih =>
    show Out.bind _ _ = Out.bind (Out.bind _ _) _
    rcases (Py.fetch r).run σ with ⟨a, τ⟩ | ⟨e, τ⟩
    · exact ih _ _
    · rfl
  | store r x v k ih =>
    show Out.bind _ _ = Out.bind (Out.bind _ _) _
    rcases (Py.store r x v).run σ with ⟨a, τ⟩ | ⟨e, τ⟩
    · exact ih _
    · rfl
  | alloc c k ih =>
    show Out.bind _ _ = Out.bind (Out.bind _ _) _
    rcases (Py.alloc c).run σ with ⟨a, τ⟩ | ⟨e, τ⟩
    · exact ih _ _
    · rfl
  | stream b k ih =>
    show Out.bind _ _ = Out.bind (Out.bind _ _) _
    rcases (Py.open_ b).run σ with ⟨a, τ⟩ | ⟨e, τ⟩
    · exact ih _ _
    · rfl
  | io n m a k ih =>
    show Out.bind _ _ = Out.bind (Out.bind _ _) _
    rcases ioMethod11 n m (a.map .pv) σ with ⟨a, τ⟩ | ⟨e, τ⟩
    · exact ih _ _
    · rfl
  | size n k ih =>
    show Out.bind _ _ = Out.bind (Out.bind _ _) _
    rcases (lengthOf n).run σ with ⟨a, τ⟩ | ⟨e, τ⟩
    · exact ih _ _
    · rfl

/-- An exception after which a stream may be left with bits in one version and without in the other, if we do not look closely. -/
def Lost (e : PyErr) : Prop := e = .attribute ∨ e = .diverge

/-- What the versions do: the same value, as `Q` says, in memories as `J` says; or the same exception, in the same memory (if we do not look
closely, then not after what is `Lost`). -/
def Agree (close : Bool) (J : State → State → Prop) (Q : α → Prop) : Out α → Out α → Prop
  | .ok a σ, .ok b τ => a = b ∧ Q b ∧ J σ τ
  | .raise e σ, .raise f τ => e = f ∧ ((close = false ∧ Lost e) ∨ σ = τ)
  | _, _ => False

/-- From memories as `I` says. -/
def Rel (close : Bool) (I J : State → State → Prop) (Q : α → Prop) (p : R α) : Prop := ∀ σ' σ, I σ' σ → Agree close J Q (p.run11 σ') (p.run σ)

/-- From the same memory, the versions do the same. -/
def Same (p : R α) : Prop := ∀ σ, p.run11 σ = p.run σ

variable {s : Bool}

/-- We do not look closely, or the memories are the same. -/
def Fine (s : Bool) (I : State → State → Prop) : Prop := s = false ∨ ∀ σ' σ, I σ' σ → σ' = σ

theorem fine_lax (I : State → State → Prop) : Fine false I := .inl rfl

theorem rel_bind {I J L : State → State → Prop} {Q : α → Prop} {S : β → Prop} {p : R α} {f : α → R β} (hp : Rel s I J Q p) (hf : ∀ a, Q a → Rel s J L S (f a)) :
    Rel s I L S (p >>= f) := by
  intro σ' σ h
  have h1 := hp σ' σ h
  rw [run11_bind, run_bind]
  revert h1
  rcases p.run11 σ' with ⟨a, τ⟩ | ⟨e, τ⟩ <;> rcases p.run σ with ⟨b, υ⟩ | ⟨e', υ⟩ <;> intro h1
  · obtain ⟨rfl, hq, hj⟩ := h1
    exact hf _ hq _ _ hj
  · exact h1.elim
  · exact h1.elim
  · exact h1

theorem Rel.mono {I I' J J' : State → State → Prop} {Q Q' : α → Prop} {p : R α} (h : Rel s I J Q p) (hi : ∀ σ τ, I' σ τ → I σ τ) (hj : ∀ σ τ, J σ τ → J' σ τ)
    (hq : ∀ a, Q a → Q' a) : Rel s I' J' Q' p := by
  intro σ' σ h1
  have h2 := h σ' σ (hi _ _ h1)
  revert h2
  rcases p.run11 σ' with ⟨a, τ⟩ | ⟨e, τ⟩ <;> rcases p.run σ with ⟨b, υ⟩ | ⟨e', υ⟩ <;> intro h2
  · exact ⟨h2.1, hq _ h2.2.1, hj _ _ h2.2.2⟩
  · exact h2.elim
  · exact h2.elim
  · exact h2

theorem rel_pure {I : State → State → Prop} {Q : α → Prop} {a : α} (h : Q a) : Rel s I I Q (pure a : R α) := fun _ _ hi => ⟨rfl, h, hi⟩
theorem rel_lost {I J : State → State → Prop} {Q : α → Prop} {e : PyErr} (h : Lost e) (hf : Fine s I) : Rel s I J Q (R.raise e : R α) := fun σ' σ hi =>
  ⟨rfl, hf.elim (fun hs => .inl ⟨hs, h⟩) fun hi' => .inr (hi' σ' σ hi)⟩
theorem lost_attribute : Lost .attribute := .inl rfl
theorem lost_diverge : Lost .diverge := .inr rfl

theorem agree_refl (o : Out α) : Agree s Eq (fun _ => True) o o := by
  cases o with
  | ok a σ => exact ⟨rfl, trivial, rfl⟩
  | raise e σ => exact ⟨rfl, .inr rfl⟩

theorem Same.rel {p : R α} (h : Same p) : Rel s Eq Eq (fun _ => True) p := by
  rintro _ σ rfl
  rw [h]
  exact agree_refl _

theorem Rel.same {p : R α} (h : ∀ σ, Rel true (fun τ' τ => τ' = τ ∧ τ = σ) Eq (fun _ => True) p) : Same p := by
  intro σ
  have h1 := h σ σ σ ⟨rfl, rfl⟩
  revert h1
  rcases p.run11 σ with ⟨a, τ⟩ | ⟨e, τ⟩ <;> rcases p.run σ with ⟨b, υ⟩ | ⟨e', υ⟩ <;> intro h1
  · obtain ⟨rfl, _, rfl⟩ := h1; rfl
  · exact h1.elim
  · exact h1.elim
  · obtain ⟨rfl, ⟨h, _⟩ | rfl⟩ := h1
    · cases h
    · rfl

theorem same_bind {p : R α} {f : α → R β} (hp : Same p) (hf : ∀ a, Same (f a)) : Same (p >>= f) := fun σ => by
  rw [run11_bind, run_bind, hp]
  cases p.run σ with
  | ok a τ => exact hf a τ
  | raise e τ => rfl
theorem same_pure (a : α) : Same (pure a : R α) := fun _ => rfl
theorem same_raise (e : PyErr) : Same (R.raise e : R α) := fun _ => rfl
theorem same_ite {c : Prop} [Decidable c] {a b : R α} (ha : Same a) (hb : Same b) : Same (if c then a else b) := by
  split
  · exact ha
  · exact hb
theorem same_get (r : Nat) : Same (R.get r) := fun _ => rfl
theorem same_put (r : Nat) (x : String) (v : Val) : Same (R.put r x v) := fun _ => rfl
theorem same_new (c : String) : Same (R.new c) := fun _ => rfl
theorem same_open (b : Bytes) : Same (R.open_ b) := fun _ => rfl
theorem same_length (n : Nat) : Same (R.length n) := fun _ => rfl
theorem io_same {m : String} (h : m ≠ "seek") (n : Nat) (args : List Val) (σ : State) : ioMethod11 n m args σ = (ioMethod n m args).run σ := by
  unfold ioMethod11
  rcases (ioMethod n m args).run σ with ⟨v, τ⟩ | ⟨e, τ⟩
  · show Out.ok v (if m = "seek" then _ else _) = _
    rw [if_neg h]
  · rfl
theorem same_use {m : String} (h : m ≠ "seek") (n : Nat) (args : List PyVal) : Same (R.use n m args) := fun σ => by
  show (ioMethod11 n m _ σ).bind _ = ((ioMethod n m _).run σ).bind _
  rw [io_same h]
  rfl

theorem same_still (m : M α) : Same (still m) := by
  unfold still
  split
  · exact same_pure _
  · exact same_raise _

/-- Calls with which the versions do the same; but for the property `data`, which is looked at separately. -/
structure CallsSame (c : Calls) : Prop where
  construct : ∀ n a, Same (c.construct n a)
  method : ∀ r m a, Same (c.method r m a)
  property : ∀ r x, x ≠ "data" → Same (c.property r x)

theorem same_builtin (g : String) (args : List Val) : Same (builtin g args) := by
  rw [builtin.eq_def]
  split
  · exact same_pure _
  · exact same_pure _
  · exact same_pure _
  · exact same_pure _
  · exact same_pure _
  · exact same_bind (same_open _) fun _ => same_pure _
  · exact same_bind (same_get _) fun _ => same_pure _
  · exact same_bind (same_get _) fun _ => same_pure _
  · exact same_raise _

theorem same_loopBound (env : Env) : Same (loopBound env) := by
  unfold loopBound
  generalize List.lookup (α := String) (β := Val) _ _ = w
  match w with
  | some (.obj r) =>
    dsimp only
    refine same_bind (same_get _) fun o => ?_
    generalize List.lookup (α := String) (β := Val) _ _ = w
    match w with
    | some (.io k) => exact same_bind (same_length _) fun _ => same_pure _
    | none | some (.obj _) | some (.pv _) | some (.list _) | some (.file _) => exact same_raise _
  | none | some (.io _) | some (.pv _) | some (.list _) | some (.file _) => exact same_raise _

theorem same_getattr {c : Calls} (hc : CallsSame c) (v : Val) {x : String} (hx : x ≠ "data") : Same (getattr c v x) := by
  rw [getattr.eq_def]
  split
  · refine same_bind (same_get _) fun a => ?_
    cases a.attrs.lookup x
    · exact hc.property _ _ hx
    · exact same_pure _
  · exact same_pure _
  · exact same_raise _

theorem same_invoke {c : Calls} (hc : CallsSame c) (v : Val) {m : String} (hm : m ≠ "seek") (args : List Val) : Same (invoke c v m args) := by
  rw [invoke.eq_def]
  split
  · exact hc.method _ _ _
  · exact same_use hm _ []
  · exact same_use hm _ [_]
  · rename_i b e
    cases codec (String.ofList e) with
    | none => exact same_raise _
    | some f => dsimp only; cases f b <;> first | exact same_pure _ | exact same_raise _
  · exact same_raise _

mutual
/-- An expression that does not use `seek` of a stream, nor `data` of an object. -/
def plain : Expr → Bool
  | .none | .bool _ | .int _ | .str _ | .bytes _ | .emptyList | .name _ | .global _ | .cls _ | .enum _ => true
  | .attr (.enum _) _ => true
  | .attr e x => x != "data" && plain e
  | .call (.attr e m) args => m != "seek" && plain e && plains args
  | .call _ args => plains args
  | .bin _ a b | .cmp _ a b | .and a b | .or a b => plain a && plain b
  | .not a => plain a
  | .ifExp t a b => plain t && plain a && plain b
/-- One by one. -/
def plains : List Expr → Bool
  | [] => true
  | e :: rest => plain e && plains rest
end

macro "basic11" : tactic => `(tactic| first | exact same_pure _ | exact same_raise _ | exact same_get _ | exact same_put _ _ _ | exact same_still _ | exact same_builtin _ _ | exact same_loopBound _)

theorem plain_attr {e : Expr} {x : String} (h : plain (.attr e x) = true) (he : ∀ n, e ≠ .enum n) : x ≠ "data" ∧ plain e = true := by
  rw [plain, Bool.and_eq_true, bne_iff_ne] at h
  · exact h
  · exact he
theorem plain_call {e : Expr} {x : String} {args : List Expr} (h : plain (.call (.attr e x) args) = true) : x ≠ "seek" ∧ plain e = true ∧ plains args = true := by
  rw [plain, Bool.and_eq_true, Bool.and_eq_true, bne_iff_ne] at h
  exact ⟨h.1.1, h.1.2, h.2⟩
theorem plain_args {f : Expr} {args : List Expr} (h : plain (.call f args) = true) : plains args = true := by
  rw [plain.eq_def] at h
  split at h
  all_goals first | (rename_i heq; cases heq; done) | (rename_i heq _; cases heq; done) | skip
  all_goals rename_i heq
  all_goals cases heq
  · simp only [Bool.and_eq_true] at h; exact h.2
  · exact h

mutual
theorem same_eval (P : Program) {c : Calls} (hc : CallsSame c) (env : Env) (e : Expr) (hp : plain e = true) : Same (eval P c env e) := by
  match e with
  | .none | .bool _ | .int _ | .str _ | .bytes _ | .emptyList => rw [eval]; basic11
  | .name x => rw [eval]; cases env.lookup x <;> basic11
  | .global _ | .cls _ | .enum _ => rw [eval]; basic11
  | .attr e x =>
    have ih := fun h => same_eval P hc env e (plain_attr hp h).2
    rw [eval.eq_def]
    split
    all_goals first | (rename_i heq; cases heq; done) | (rename_i heq _; cases heq; done) | skip
    all_goals rename_i heq
    all_goals cases heq
    · rename_i e
      cases P.enums.find? (fun d => d.qualified == e) with
      | none => basic11
      | some d => dsimp only; cases d.members.lookup x <;> basic11
    · rename_i h
      exact same_bind (ih h) fun v => same_getattr hc v (plain_attr hp h).1
  | .call f args =>
    have hargs := same_evals P hc env args (plain_args hp)
    have hf : ∀ e m, f = .attr e m → Same (eval P c env e) ∧ m ≠ "seek" := by
      match f with
      | .attr e m =>
        have := same_eval P hc env e (plain_call hp).2.1
        have h2 := (plain_call hp).1
        intro e' m' h; cases h; exact ⟨this, h2⟩
      | .none | .bool _ | .int _ | .str _ | .bytes _ | .emptyList | .name _ | .global _ | .cls _ | .enum _ | .call _ _ | .bin _ _ _ | .cmp _ _ _
      | .not _ | .and _ _ | .or _ _ | .ifExp _ _ _ => intro e' m' h; cases h
    have hx : ∀ a x, args = [a, x] → Same (eval P c env x) := by
      match args with
      | [a, x] =>
        have hq := plain_args hp
        rw [plains, plains, Bool.and_eq_true, Bool.and_eq_true] at hq
        have := same_eval P hc env x hq.2.1; intro a' x' h; cases h; exact this
      | [] | [_] | _ :: _ :: _ :: _ => intro a' x' h; cases h
    rw [eval.eq_def]
    split
    all_goals first | (rename_i heq; cases heq; done) | (rename_i heq _; cases heq; done) | skip
    all_goals rename_i heq
    all_goals cases heq
    · exact same_bind hargs fun _ => hc.construct _ _
    · exact same_bind hargs fun _ => by basic11
    · refine same_bind (hx _ _ rfl) fun v => ?_
      generalize List.find? _ _ = o
      cases o with
      | none => basic11
      | some d =>
        match v with
        | .pv (.int (.ofNat v)) => basic11
        | .pv (.int (.negSucc v)) => basic11
        | .pv .none | .pv (.bool _) | .pv (.str _) | .pv (.bytes _) | .pv (.enum _ _) | .pv (.list _) | .pv (.dict _) | .pv (.struct _ _) | .pv .stream | .pv .backref
        | .obj _ | .io _ | .file _ | .list _ => basic11
    · exact same_bind (hf _ _ rfl).1 fun v => same_bind hargs fun _ => same_invoke hc v (hf _ _ rfl).2 _
    · basic11
  | .bin op a b =>
    rw [plain, Bool.and_eq_true] at hp
    rw [eval]
    exact same_bind (same_eval P hc env a hp.1) fun x => same_bind (same_eval P hc env b hp.2) fun y => by basic11
  | .cmp op a b =>
    rw [plain, Bool.and_eq_true] at hp
    rw [eval]
    exact same_bind (same_eval P hc env a hp.1) fun x => same_bind (same_eval P hc env b hp.2) fun y => by basic11
  | .not a => rw [plain] at hp; rw [eval]; exact same_bind (same_eval P hc env a hp) fun x => by basic11
  | .and a b =>
    rw [plain, Bool.and_eq_true] at hp
    rw [eval]
    exact same_bind (same_eval P hc env a hp.1) fun x => same_ite (same_eval P hc env b hp.2) (by basic11)
  | .or a b =>
    rw [plain, Bool.and_eq_true] at hp
    rw [eval]
    exact same_bind (same_eval P hc env a hp.1) fun x => same_ite (by basic11) (same_eval P hc env b hp.2)
  | .ifExp t a b =>
    rw [plain, Bool.and_eq_true, Bool.and_eq_true] at hp
    rw [eval]
    exact same_bind (same_eval P hc env t hp.1.1) fun x => same_ite (same_eval P hc env a hp.1.2) (same_eval P hc env b hp.2)
theorem same_evals (P : Program) {c : Calls} (hc : CallsSame c) (env : Env) (l : List Expr) (hp : plains l = true) : Same (evals P c env l) := by
  match l with
  | [] => rw [evals]; basic11
  | e :: rest =>
    rw [plains, Bool.and_eq_true] at hp
    rw [evals]
    exact same_bind (same_eval P hc env e hp.1) fun _ => same_bind (same_evals P hc env rest hp.2) fun _ => by basic11
end

theorem same_forLoop {body : Env → R Flow} (h : ∀ env, Same (body env)) (x : String) : ∀ (l : List Val) (env : Env), Same (forLoop body x l env)
  | [], env => by rw [forLoop]; basic11
  | v :: rest, env => by
    rw [forLoop]
    refine same_bind (h _) fun f => ?_
    cases f with
    | next env => exact same_forLoop h x rest env
    | brk env => basic11
    | ret v => basic11

theorem same_whileLoop {c : Env → R Bool} {body : Env → R Flow} (hc : ∀ env, Same (c env)) (h : ∀ env, Same (body env)) :
    ∀ (n : Nat) (env : Env), Same (whileLoop c body n env)
  | 0, env => by
    rw [whileLoop]
    exact same_bind (hc _) fun t => same_ite (by basic11) (by basic11)
  | n + 1, env => by
    rw [whileLoop]
    refine same_bind (hc _) fun t => same_ite ?_ (by basic11)
    refine same_bind (h _) fun f => ?_
    cases f with
    | next env => exact same_whileLoop hc h n env
    | brk env => basic11
    | ret v => basic11

end Version

end Dmr.Py.Threads
