import Verif.Py.Semantics
/-
No object ever has two attributes of one name, whatever the decoders do.
-/

set_option autoImplicit false

namespace Dmr.Py

/-- No object of the memory has two attributes of one name: attributes are kept in a dictionary. -/
def Distinct (h : List Obj) : Prop := ∀ o ∈ h, (o.attrs.map Prod.fst).Nodup

/-- The memory after it. -/
def Out.state {α : Type} : Out α → State
  | .ok _ σ => σ
  | .raise _ σ => σ

/-- It does not give two attributes of one name to an object. -/
def Keeps {α : Type} (m : M α) : Prop := ∀ σ, Distinct σ.heap → Distinct (m.run σ).state.heap

variable {α β : Type}

theorem keeps_pure (a : α) : Keeps (pure a) := fun _ h => h
theorem keeps_raise (e : PyErr) : Keeps (raise e : M α) := fun _ h => h

theorem keeps_bind {m : M α} {f : α → M β} (hm : Keeps m) (hf : ∀ a, Keeps (f a)) : Keeps (m >>= f) := by
  intro σ h
  show Distinct (Out.bind (m.run σ) fun a σ' => (f a).run σ').state.heap
  have := hm σ h
  cases hr : m.run σ with
  | ok a τ => rw [hr] at this; exact hf a τ this
  | raise e τ => rw [hr] at this; exact this

theorem keeps_ite {c : Prop} [Decidable c] {a b : M α} (ha : Keeps a) (hb : Keeps b) : Keeps (if c then a else b) := by
  split
  · exact ha
  · exact hb

theorem keeps_onStream (k : Nat) (r : Rd α) : Keeps (onStream k r) := by
  intro σ h
  show Distinct (onStream k r σ).state.heap
  unfold onStream after
  split
  · split <;> exact h
  · exact h

theorem keeps_fetch (r : Nat) : Keeps (fetch r) := by
  intro σ h
  show Distinct (fetch r σ).state.heap
  unfold fetch
  split <;> exact h

theorem upsert_mem (x : String) (v : Val) (y : String) : ∀ l : List (String × Val), y ∈ (upsert x v l).map Prod.fst → y = x ∨ y ∈ l.map Prod.fst
  | [], h => by simpa [upsert] using h
  | (z, w) :: l, h => by
    rw [upsert] at h
    split at h
    · simp only [List.map_cons, List.mem_cons] at h ⊢
      rcases h with h | h
      · exact .inl h
      · exact .inr (.inr h)
    · simp only [List.map_cons, List.mem_cons] at h ⊢
      rcases h with h | h
      · exact .inr (.inl h)
      · exact (upsert_mem x v y l h).imp_right .inr

theorem upsert_nodup (x : String) (v : Val) : ∀ l : List (String × Val), (l.map Prod.fst).Nodup → ((upsert x v l).map Prod.fst).Nodup
  | [], _ => by simp [upsert]
  | (z, w) :: l, h => by
    rw [List.map_cons, List.nodup_cons] at h
    rw [upsert]
    split
    · rename_i e
      subst e
      rw [List.map_cons, List.nodup_cons]
      exact h
    · rename_i e
      rw [List.map_cons, List.nodup_cons]
      refine ⟨fun m => ?_, upsert_nodup x v l h.2⟩
      rcases upsert_mem x v z l m with m | m
      · exact e m.symm
      · exact h.1 m

theorem keeps_store (r : Nat) (x : String) (v : Val) : Keeps (store r x v) := by
  intro σ h
  show Distinct (store r x v σ).state.heap
  unfold store
  split
  · rename_i o ho
    intro q hq
    rcases List.mem_or_eq_of_mem_set hq with hq | rfl
    · exact h q hq
    · exact upsert_nodup x v _ (h o (List.mem_of_getElem? ho))
  · exact h

theorem keeps_alloc (cls : String) : Keeps (alloc cls) := by
  intro σ h o ho
  have ho : o ∈ σ.heap ++ [⟨cls, []⟩] := ho
  rcases List.mem_append.1 ho with ho | ho
  · exact h o ho
  · rw [List.mem_singleton] at ho
    subst ho
    exact List.nodup_nil

theorem keeps_open (b : Bytes) : Keeps (open_ b) := fun _ h => h

theorem keeps_discard {m : M α} (hm : Keeps m) : Keeps (discard m) := by
  intro σ h
  have := hm σ h
  show Distinct (discard m σ).state.heap
  unfold discard
  have e : m σ = m.run σ := rfl
  rw [e]
  cases hr : m.run σ with
  | ok a τ => rw [hr] at this; exact this
  | raise e τ => rw [hr] at this; exact fun o ho => this o (List.mem_of_mem_take ho)

/-- Goes through what is written with these. -/
macro "keeps" : tactic => `(tactic|
  repeat' (first
    | exact keeps_pure _
    | exact keeps_raise _
    | exact keeps_onStream _ _
    | exact keeps_fetch _
    | exact keeps_store _ _ _
    | assumption
    | (refine keeps_bind ?_ (fun _ => ?_))
    | (refine keeps_ite ?_ ?_)
    | split))

theorem keeps_bin (op : BinOp) (a b : Val) : Keeps (op.apply a b) := by unfold BinOp.apply; keeps
theorem keeps_cmp (op : CmpOp) (a b : Val) : Keeps (op.apply a b) := by unfold CmpOp.apply; keeps
theorem keeps_ioMethod (k : Nat) (m : String) (args : List Val) : Keeps (ioMethod k m args) := by unfold ioMethod; keeps
theorem keeps_builtin (g : String) (args : List Val) : Keeps (builtin g args) := by
  unfold builtin
  keeps
  exact keeps_open _

/-- So do the calls. -/
structure CallsKeep (c : Calls) : Prop where
  construct : ∀ n args, Keeps (c.construct n args)
  method : ∀ r m args, Keeps (c.method r m args)
  property : ∀ r x, Keeps (c.property r x)

theorem keeps_getattr {c : Calls} (hc : CallsKeep c) (v : Val) (x : String) : Keeps (getattr c v x) := by
  have := hc.property
  unfold getattr
  keeps
  exact this _ _

theorem keeps_invoke {c : Calls} (hc : CallsKeep c) (v : Val) (m : String) (args : List Val) : Keeps (invoke c v m args) := by
  have := hc.method
  unfold invoke
  split
  · exact this _ _ _
  · exact keeps_ioMethod _ _ _
  · keeps
  · keeps

/-- The arguments in order. -/
theorem keeps_all (P : Program) {c : Calls} {env : Env} : ∀ {l : List Expr}, (∀ e ∈ l, Keeps (eval P c env e)) → Keeps (evals P c env l)
  | [], _ => by rw [evals]; exact keeps_pure _
  | e :: rest, h => by
    rw [evals]
    exact keeps_bind (h _ (List.mem_cons_self ..)) fun _ => keeps_bind (keeps_all P fun a ha => h a (List.mem_cons_of_mem _ ha)) fun _ => keeps_pure _

mutual
theorem keeps_eval (P : Program) {c : Calls} (hc : CallsKeep c) (env : Env) (e : Expr) : Keeps (eval P c env e) := by
  match e with
  | .none | .bool _ | .int _ | .str _ | .bytes _ | .emptyList => rw [eval]; exact keeps_pure _
  | .name x => rw [eval]; keeps
  | .global _ | .cls _ | .enum _ => rw [eval]; exact keeps_raise _
  | .attr e x =>
    have ih := keeps_eval P hc env e
    have hg := keeps_getattr hc
    rw [eval.eq_def]
    split
    all_goals first | (rename_i heq; cases heq; done) | (rename_i heq _; cases heq; done) | skip
    all_goals rename_i heq
    all_goals cases heq
    · keeps
    · exact keeps_bind ih fun _ => hg _ _
  | .call f args =>
    have hs := keeps_evals P hc env args
    have hf : ∀ e m, f = .attr e m → Keeps (eval P c env e) := by
      match f with
      | .attr e m =>
        have := keeps_eval P hc env e
        intro e' m' h
        cases h
        exact this
      | .none | .bool _ | .int _ | .str _ | .bytes _ | .emptyList | .name _ | .global _ | .cls _ | .enum _ | .call _ _ | .bin _ _ _ | .cmp _ _ _
      | .not _ | .and _ _ | .or _ _ | .ifExp _ _ _ => intro e' m' h; cases h
    have hall := keeps_all P hs
    rw [eval.eq_def]
    split
    all_goals first | (rename_i heq; cases heq; done) | (rename_i heq _; cases heq; done) | skip
    all_goals rename_i heq
    all_goals cases heq
    · exact keeps_bind hall fun _ => hc.construct _ _
    · exact keeps_bind hall fun _ => keeps_builtin _ _
    · refine keeps_bind (hs _ (List.mem_cons_of_mem _ (List.mem_singleton.2 rfl))) fun _ => ?_
      keeps
    · exact keeps_bind (hf _ _ rfl) fun _ => keeps_bind hall fun _ => keeps_invoke hc _ _ _
    · exact keeps_raise _
  | .bin op a b =>
    rw [eval]
    exact keeps_bind (keeps_eval P hc env a) fun _ => keeps_bind (keeps_eval P hc env b) fun _ => keeps_bin _ _ _
  | .cmp op a b =>
    rw [eval]
    exact keeps_bind (keeps_eval P hc env a) fun _ => keeps_bind (keeps_eval P hc env b) fun _ => keeps_cmp _ _ _
  | .not a => rw [eval]; exact keeps_bind (keeps_eval P hc env a) fun _ => keeps_pure _
  | .and a b =>
    rw [eval]
    exact keeps_bind (keeps_eval P hc env a) fun _ => keeps_ite (keeps_eval P hc env b) (keeps_pure _)
  | .or a b =>
    rw [eval]
    exact keeps_bind (keeps_eval P hc env a) fun _ => keeps_ite (keeps_pure _) (keeps_eval P hc env b)
  | .ifExp t a b =>
    rw [eval]
    exact keeps_bind (keeps_eval P hc env t) fun _ => keeps_ite (keeps_eval P hc env a) (keeps_eval P hc env b)
theorem keeps_evals (P : Program) {c : Calls} (hc : CallsKeep c) (env : Env) (l : List Expr) : ∀ e ∈ l, Keeps (eval P c env e) := by
  match l with
  | [] => intro e h; cases h
  | e :: rest =>
    have h1 := keeps_eval P hc env e
    have h2 := keeps_evals P hc env rest
    intro a ha
    rcases List.mem_cons.1 ha with rfl | ha
    · exact h1
    · exact h2 a ha
end

theorem keeps_forLoop {body : Env → M Flow} (hb : ∀ env, Keeps (body env)) (x : String) : ∀ (l : List Val) (env : Env), Keeps (forLoop body x l env)
  | [], _ => by rw [forLoop]; exact keeps_pure _
  | v :: rest, env => by
    rw [forLoop]
    refine keeps_bind (hb _) fun f => ?_
    cases f with
    | next env => exact keeps_forLoop hb x rest env
    | brk env => exact keeps_pure _
    | ret v => exact keeps_pure _

theorem keeps_whileLoop {c : Env → M Bool} {body : Env → M Flow} (hc : ∀ env, Keeps (c env)) (hb : ∀ env, Keeps (body env)) :
    ∀ (n : Nat) (env : Env), Keeps (whileLoop c body n env)
  | 0, env => by
    rw [whileLoop]
    refine keeps_bind (hc _) fun t => keeps_ite ?_ (keeps_pure _)
    exact keeps_raise _
  | n + 1, env => by
    rw [whileLoop]
    refine keeps_bind (hc _) fun t => keeps_ite ?_ (keeps_pure _)
    refine keeps_bind (hb _) fun f => ?_
    cases f with
    | next env => exact keeps_whileLoop hc hb n env
    | brk env => exact keeps_pure _
    | ret v => exact keeps_pure _

theorem keeps_loopBound (env : Env) : Keeps (loopBound env) := by
  intro σ h
  show Distinct (loopBound env σ).state.heap
  unfold loopBound
  repeat' split
  all_goals exact h

mutual
theorem keeps_exec (P : Program) {c : Calls} (hc : CallsKeep c) (st : Stmt) (env : Env) : Keeps (exec P c st env) := by
  have he := keeps_eval P hc
  match st with
  | .assign x e => rw [exec]; exact keeps_bind (he _ _) fun _ => keeps_pure _
  | .setattr o x e =>
    rw [exec]
    refine keeps_bind (he _ _) fun _ => keeps_bind (he _ _) fun _ => ?_
    keeps
  | .expr e =>
    rw [exec.eq_def]
    split
    all_goals first | (rename_i heq; cases heq; done) | (rename_i heq _; cases heq; done) | skip
    · refine keeps_bind (he _ _) fun v => ?_
      split
      · refine keeps_bind (keeps_fetch _) fun _ => ?_
        split
        · refine keeps_bind (he _ _) fun v => ?_
          keeps
        · exact keeps_raise _
      · exact keeps_raise _
    · exact keeps_bind (he _ _) fun _ => keeps_pure _
  | .if_ t a b => rw [exec]; exact keeps_bind (he _ _) fun _ => keeps_ite (keeps_execs P hc a env) (keeps_execs P hc b env)
  | .for_ x it body =>
    have hb := keeps_execs P hc body
    rw [exec]
    refine keeps_bind (he _ _) fun v => ?_
    split
    · exact keeps_forLoop hb _ _ _
    · exact keeps_raise _
  | .while_ t body =>
    have hb := keeps_execs P hc body
    rw [exec]
    exact keeps_bind (keeps_loopBound _) fun n => keeps_whileLoop (fun env => keeps_bind (he _ _) fun _ => keeps_pure _) hb _ _
  | .break_ => rw [exec]; exact keeps_pure _
  | .pass_ => rw [exec]; exact keeps_pure _
  | .raise_ e =>
    rw [exec.eq_def]
    split
    all_goals first | (rename_i heq; cases heq; done) | (rename_i heq _; cases heq; done) | skip
    · exact keeps_bind (he _ _) fun _ => keeps_bind (he _ _) fun _ => keeps_bind (he _ _) fun _ => keeps_raise _
    · exact keeps_raise _
  | .return_ e => rw [exec]; exact keeps_bind (he _ _) fun _ => keeps_pure _
theorem keeps_execs (P : Program) {c : Calls} (hc : CallsKeep c) (l : List Stmt) (env : Env) : Keeps (execs P c l env) := by
  match l with
  | [] => rw [execs]; exact keeps_pure _
  | st :: rest =>
    have h1 := keeps_exec P hc st
    have h2 := keeps_execs P hc rest
    rw [execs]
    refine keeps_bind (h1 _) fun f => ?_
    split
    · exact h2 _
    · exact keeps_pure _
end

theorem keeps_call (P : Program) {c : Calls} (hc : CallsKeep c) (f : Function) (args : List Val) : Keeps (f.call P c args) := by
  unfold Function.call
  refine keeps_bind (keeps_execs P hc _ _) fun v => ?_
  split <;> exact keeps_pure _

/-- Whatever is called, no object gets two attributes of one name. -/
theorem calls_keep (P : Program) : ∀ n, CallsKeep (calls P n)
  | 0 => ⟨fun _ _ => keeps_raise _, fun _ _ _ => keeps_raise _, fun _ _ => keeps_raise _⟩
  | n + 1 => by
    have ih := calls_keep P n
    refine ⟨fun cls args => ?_, fun r m args => ?_, fun r x => ?_⟩
    · rw [calls]
      refine keeps_discard ?_
      split
      · exact keeps_bind (keeps_alloc _) fun _ => keeps_bind (keeps_call P ih _ _) fun _ => keeps_pure _
      · exact keeps_raise _
    · rw [calls]
      refine keeps_bind (keeps_fetch _) fun o => ?_
      split
      · exact keeps_call P ih _ _
      · exact keeps_raise _
    · rw [calls]
      refine keeps_bind (keeps_fetch _) fun o => ?_
      split
      · exact keeps_call P ih _ _
      · exact keeps_raise _

end Dmr.Py
