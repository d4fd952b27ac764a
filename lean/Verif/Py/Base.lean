import Verif.Py.Place
import Verif.Py.Attr
import Verif.Py.Lookup
import Verif.Model.Tools.PyView
import Verif.Enums
/-
The equations by which the proofs in Verif/Py/Conform compute what the source files do.
-/

set_option autoImplicit false

namespace Dmr.Py

variable {α β γ : Type}

@[py] theorem run_bind (m : M α) (f : α → M β) (σ : State) : (m >>= f).run σ = (m.run σ).bind fun a σ' => (f a).run σ' := rfl
@[py] theorem run_pure (a : α) (σ : State) : (pure a : M α).run σ = .ok a σ := rfl
@[py] theorem run_raise (e : PyErr) (σ : State) : (raise e : M α).run σ = .raise e σ := rfl
@[py] theorem bind_ok (a : α) (σ : State) (f : α → State → Out β) : (Out.ok a σ).bind f = f a σ := rfl
@[py] theorem bind_raise (e : PyErr) (σ : State) (f : α → State → Out β) : (Out.raise e σ).bind f = .raise e σ := rfl

@[py] theorem bind_after (r : Rd α) (s : Stream) (err : PyErr → Stream → Out β) (ok : α → Stream → Out β)
    (f : β → State → Out γ) :
    (after r s err ok).bind f = after r s (fun e s => (err e s).bind f) (fun a s => (ok a s).bind f) := by
  unfold after; rcases r s with ⟨_ | _, _⟩ <;> rfl

theorem bind_bind (o : Out α) (f : α → State → Out β) (g : β → State → Out γ) :
    (o.bind f).bind g = o.bind fun a σ => (f a σ).bind g := by
  cases o <;> rfl

@[py] theorem bind_ite (c : Prop) [Decidable c] (x y : Out α) (f : α → State → Out β) :
    (if c then x else y).bind f = if c then x.bind f else y.bind f := by
  split <;> rfl

theorem ok_ite (c : Prop) [Decidable c] (x y : α) (σ : State) :
    Out.ok (if c then x else y) σ = if c then Out.ok x σ else Out.ok y σ := by split <;> rfl

@[py] theorem run_ite (c : Prop) [Decidable c] (x y : M α) (σ : State) :
    (if c then x else y).run σ = if c then x.run σ else y.run σ := by
  split <;> rfl

@[py] theorem after_bind (r : Rd α) (g : α → Rd β) (s : Stream) (err : PyErr → Stream → Out γ) (ok : β → Stream → Out γ) :
    after (r >>= g) s err ok = after r s err (fun a s' => after (g a) s' err ok) := by
  unfold after
  show (match Rd.bind r g s with | (.ok a, s) => ok a s | (.error e, s) => err e s) = _
  unfold Rd.bind
  rcases r s with ⟨_ | _, _⟩ <;> rfl

@[py] theorem after_pure (a : α) (s : Stream) (err : PyErr → Stream → Out γ) (ok : α → Stream → Out γ) :
    after (pure a : Rd α) s err ok = ok a s := rfl

@[py] theorem after_throw (e : PyErr) (s : Stream) (err : PyErr → Stream → Out γ) (ok : α → Stream → Out γ) :
    after (Rd.throw e : Rd α) s err ok = err e s := rfl

@[py] theorem after_ite (c : Prop) [Decidable c] (x y : Rd α) (s : Stream) (err : PyErr → Stream → Out γ)
    (ok : α → Stream → Out γ) :
    after (if c then x else y) s err ok = if c then after x s err ok else after y s err ok := by
  split <;> rfl

theorem after_congr {r : Rd α} {s : Stream} {err err' : PyErr → Stream → Out γ} {ok ok' : α → Stream → Out γ}
    (h1 : ∀ e s, err e s = err' e s) (h2 : ∀ a s, ok a s = ok' a s) : after r s err ok = after r s err' ok' := by
  rw [funext fun e => funext (h1 e), funext fun a => funext (h2 a)]

theorem after_congr_ok {r : Rd α} {s : Stream} {err : PyErr → Stream → Out γ} {ok ok' : α → Stream → Out γ}
    (h : ∀ a s', r s = (.ok a, s') → ok a s' = ok' a s') : after r s err ok = after r s err ok' := by
  unfold after
  rcases hr : r s with ⟨_ | a, s'⟩
  · rfl
  · exact h a s' hr

theorem after_size (s : Stream) (err : PyErr → Stream → Out γ) (ok : Nat → Stream → Out γ) :
    after sizeIo s err ok = ok s.buf.length s := rfl
theorem after_seek (n : Nat) (s : Stream) (err : PyErr → Stream → Out γ) (ok : Unit → Stream → Out γ) :
    after (seekIo n) s err ok = ok () { s with pos := n } := rfl
theorem after_pos (s : Stream) (err : PyErr → Stream → Out γ) (ok : Nat → Stream → Out γ) :
    after posIo s err ok = ok s.pos s := rfl

/-! ### Memory -/

@[py] theorem fetch_self (H T : List Obj) (o : Obj) (S : List Stream) :
    (fetch H.length).run ⟨H ++ o :: T, S⟩ = .ok o ⟨H ++ o :: T, S⟩ := by
  simp [M.run, fetch]

@[py] theorem store_self (H T : List Obj) (c : String) (A : List (String × Val)) (S : List Stream) (x : String) (v : Val) :
    (store H.length x v).run ⟨H ++ ⟨c, A⟩ :: T, S⟩ = .ok () ⟨H ++ ⟨c, upsert x v A⟩ :: T, S⟩ := by
  simp [M.run, store]

/-- An object that was there before the objects `T`. -/
theorem fetch_old {H : List Obj} {p : Nat} {o : Obj} (h : H[p]? = some o) (T : List Obj) (S : List Stream) :
    (fetch p).run ⟨H ++ T, S⟩ = .ok o ⟨H ++ T, S⟩ := by
  have hp : p < H.length := by
    rcases Nat.lt_or_ge p H.length with h' | h'
    · exact h'
    · rw [List.getElem?_eq_none h'] at h; cases h
  simp [M.run, fetch, List.getElem?_append_left hp, h]

theorem lt_of_getElem? {H : List Obj} {p : Nat} {o : Obj} (h : H[p]? = some o) : p < H.length := by
  rcases Nat.lt_or_ge p H.length with h' | h'
  · exact h'
  · rw [List.getElem?_eq_none h'] at h; cases h

/-- Changing an object that was there before the objects `T`. -/
theorem store_old {H : List Obj} {p : Nat} {c : String} {A : List (String × Val)} (h : H[p]? = some ⟨c, A⟩) (T : List Obj) (S : List Stream)
    (x : String) (v : Val) : (store p x v).run ⟨H ++ T, S⟩ = .ok () ⟨H.set p ⟨c, upsert x v A⟩ ++ T, S⟩ := by
  have hp := lt_of_getElem? h
  simp [M.run, store, List.getElem?_append_left hp, h, List.set_append_left _ _ hp]

theorem fetch_changed {H : List Obj} {p : Nat} {o : Obj} (h : H[p]? = some o) (o' : Obj) (T : List Obj) (S : List Stream) :
    (fetch p).run ⟨H.set p o' ++ T, S⟩ = .ok o' ⟨H.set p o' ++ T, S⟩ := by
  have hp := lt_of_getElem? h
  have hp' : p < (H.set p o').length := by rw [List.length_set]; exact hp
  simp [M.run, fetch, List.getElem?_append_left hp', hp]

@[py] theorem fetch_self_set (H T : List Obj) (p : Nat) (o' o : Obj) (S : List Stream) :
    (fetch H.length).run ⟨H.set p o' ++ o :: T, S⟩ = .ok o ⟨H.set p o' ++ o :: T, S⟩ := by
  have := fetch_self (H.set p o') T o S
  rwa [List.length_set] at this

@[py] theorem store_self_set (H T : List Obj) (p : Nat) (o' : Obj) (c : String) (A : List (String × Val)) (S : List Stream) (x : String) (v : Val) :
    (store H.length x v).run ⟨H.set p o' ++ ⟨c, A⟩ :: T, S⟩ = .ok () ⟨H.set p o' ++ ⟨c, upsert x v A⟩ :: T, S⟩ := by
  have := store_self (H.set p o') T c A S x v
  rwa [List.length_set] at this

theorem onStream_set (k : Nat) (r : Rd α) (H : List Obj) (S : List Stream) (hk : k < S.length) (s : Stream) :
    (onStream k r).run ⟨H, S.set k s⟩ =
      after r s (fun e s' => .raise e ⟨H, S.set k s'⟩) (fun a s' => .ok a ⟨H, S.set k s'⟩) := by
  simp [M.run, onStream, hk]

@[py] theorem upsert_nil (x : String) (v : Val) : upsert x v [] = [(x, v)] := rfl
@[py] theorem upsert_cons (x y : String) (v w : Val) (l) :
    upsert x v ((y, w) :: l) = if x = y then (x, v) :: l else (y, w) :: upsert x v l := rfl

@[py] theorem lookup_cons (x y : String) (v : β) (l : List (String × β)) :
    List.lookup x ((y, v) :: l) = if x = y then some v else List.lookup x l := by
  rw [List.lookup_cons]
  by_cases h : x = y
  · simp [h]
  · simp [h, beq_false_of_ne h]

/-! ### Expressions -/

section
variable (P : Program) (c : Calls) (env : Env)

@[py ↓] theorem eval_none : eval P c env .none = pure (.pv .none) := by rw [eval]
@[py ↓] theorem eval_bool (b) : eval P c env (.bool b) = pure (.pv (.bool b)) := by rw [eval]
@[py ↓] theorem eval_int (n) : eval P c env (.int n) = pure (.pv (.int n)) := by rw [eval]
@[py ↓] theorem eval_str (s) : eval P c env (.str s) = pure (.pv (.str s.toList)) := by rw [eval]
@[py ↓] theorem eval_bytes (b) : eval P c env (.bytes b) = pure (.pv (.bytes b)) := by rw [eval]
@[py ↓] theorem eval_emptyList : eval P c env .emptyList = pure (.list []) := by rw [eval]

/-- The value of a variable. -/
def var (env : Env) (x : String) : M Val :=
  match env.lookup x with
  | some v => return v
  | none => raise .attribute

@[py ↓] theorem eval_name (x) : eval P c env (.name x) = var env x := by rw [eval]; rfl
@[py] theorem var_cons (x y : String) (v : Val) (env : Env) : var ((y, v) :: env) x = if x = y then pure v else var env x := by
  unfold var
  rw [lookup_cons]
  by_cases h : x = y
  · simp [h]
  · rw [if_neg h, if_neg h]

/-- The member of an enumeration. -/
def member (P : Program) (e m : String) : M Val :=
  match P.enums.find? (fun d => d.qualified == e) with
  | some d =>
    match d.members.lookup m with
    | some v => return .pv (.enum d.name v)
    | none => raise .attribute
  | none => raise .attribute

theorem member_of {P : Program} {e m : String} {d : EnumDef} {v : Nat} (h : P.enums.find? (fun d => d.qualified == e) = some d)
    (hm : d.members.lookup m = some v) : member P e m = pure (.pv (.enum d.name v)) := by
  unfold member
  rw [h]
  dsimp only
  rw [hm]

@[py ↓] theorem eval_member (e m) : eval P c env (.attr (.enum e) m) = member P e m := by rw [eval]; rfl

@[py ↓] theorem eval_attr_name (y x) : eval P c env (.attr (.name y) x) = (do getattr c (← var env y) x) := by
  rw [eval]
  · rw [eval_name]
  · intro e h; cases h

@[py ↓] theorem eval_attr_attr (e y x) : eval P c env (.attr (.attr e y) x) = (do getattr c (← eval P c env (.attr e y)) x) := by
  rw [eval]
  intro e h; cases h

@[py ↓] theorem eval_cls (n args) : eval P c env (.call (.cls n) args) = (do c.construct n (← evals P c env args)) := by
  rw [eval]

@[py ↓] theorem eval_builtin (g args) : eval P c env (.call (.global g) args) = (do builtin g (← evals P c env args)) := by
  rw [eval]

/-- `KaitaiStream.resolve_enum` -/
def resolve (P : Program) (e : String) (v : Val) : M Val :=
  match P.enums.find? (fun d => d.qualified == e), v with
  | some d, .pv (.int (.ofNat v)) => return .pv (d.resolve v)
  | _, _ => raise .attribute

@[py ↓] theorem eval_resolve (e x) : eval P c env (.call (.attr (.global "KaitaiStream") "resolve_enum") [.enum e, x]) = (do
    resolve P e (← eval P c env x)) := by
  rw [eval]; rfl

@[py ↓] theorem eval_method_name (y m args) : eval P c env (.call (.attr (.name y) m) args) = (do
    let v ← var env y
    invoke c v m (← evals P c env args)) := by
  rw [eval]
  · rw [eval_name]
  · intro e x _ h; cases h

@[py ↓] theorem eval_method_attr (e y m args) : eval P c env (.call (.attr (.attr e y) m) args) = (do
    let v ← eval P c env (.attr e y)
    invoke c v m (← evals P c env args)) := by
  conv => lhs; unfold eval

@[py ↓] theorem eval_method_call (f as m args) : eval P c env (.call (.attr (.call f as) m) args) = (do
    let v ← eval P c env (.call f as)
    invoke c v m (← evals P c env args)) := by
  rw [eval]
  intro e x _ h; cases h

@[py ↓] theorem eval_bin (op a b) : eval P c env (.bin op a b) = (do
    let x ← eval P c env a
    op.apply x (← eval P c env b)) := by rw [eval]
@[py ↓] theorem eval_cmp (op a b) : eval P c env (.cmp op a b) = (do
    let x ← eval P c env a
    op.apply x (← eval P c env b)) := by rw [eval]
@[py ↓] theorem eval_not (e) : eval P c env (.not e) = (do return .pv (.bool (!truthy (← eval P c env e)))) := by rw [eval]
@[py ↓] theorem eval_and (a b) : eval P c env (.and a b) = (do
    let x ← eval P c env a
    if truthy x then eval P c env b else return x) := by rw [eval]
@[py ↓] theorem eval_or (a b) : eval P c env (.or a b) = (do
    let x ← eval P c env a
    if truthy x then return x else eval P c env b) := by rw [eval]
@[py ↓] theorem eval_ifExp (t a b) : eval P c env (.ifExp t a b) = (do
    if truthy (← eval P c env t) then eval P c env a else eval P c env b) := by rw [eval]

@[py ↓] theorem evals_nil : evals P c env [] = pure [] := by rw [evals]
@[py ↓] theorem evals_cons (e rest) : evals P c env (e :: rest) = (do
    let v ← eval P c env e
    return v :: (← evals P c env rest)) := by rw [evals]

/-! ### Statements -/

/-- The rest of the statements, unless a statement leads elsewhere. -/
def andThen (rest : Env → M Flow) : Flow → M Flow
  | .next env => rest env
  | f => return f

@[py ↓] theorem execs_nil : execs P c [] env = pure (.next env) := by rw [execs]
@[py ↓] theorem execs_cons (st rest) : execs P c (st :: rest) env = (do
    andThen (execs P c rest) (← exec P c st env)) := by
  rw [execs]
  rfl

@[py] theorem andThen_next (rest : Env → M Flow) (env : Env) : andThen rest (.next env) = rest env := rfl
@[py] theorem andThen_brk (rest : Env → M Flow) (env : Env) : andThen rest (.brk env) = pure (.brk env) := rfl
@[py] theorem andThen_ret (rest : Env → M Flow) (v : Val) : andThen rest (.ret v) = pure (.ret v) := rfl

/-- Assigning to an attribute of a value. -/
def setattr (o : Val) (x : String) (v : Val) (env : Env) : M Flow :=
  match o with
  | .obj r => do
    store r x v
    return .next env
  | _ => raise .attribute

@[py ↓] theorem exec_setattr (o x e) : exec P c (.setattr o x e) env = (do
    let v ← eval P c env e
    let w ← eval P c env o
    setattr w x v env) := by
  rw [exec]
  rfl

@[py] theorem setattr_obj (r x v) : setattr (.obj r) x v env = (do
    store r x v
    return .next env) := rfl

@[py ↓] theorem exec_assign (x e) : exec P c (.assign x e) env = (do return .next (upsert x (← eval P c env e) env)) := by rw [exec]
@[py ↓] theorem exec_if (t a b) : exec P c (.if_ t a b) env = (do
    if truthy (← eval P c env t) then execs P c a env else execs P c b env) := by rw [exec]
@[py ↓] theorem exec_pass : exec P c .pass_ env = pure (.next env) := by rw [exec]
@[py ↓] theorem exec_break : exec P c .break_ env = pure (.brk env) := by rw [exec]
@[py ↓] theorem exec_return (e) : exec P c (.return_ e) env = (do return .ret (← eval P c env e)) := by rw [exec]
@[py ↓] theorem exec_raise (a b d place) :
    exec P c (.raise_ (.call (.attr (.global "kaitaistruct") "ValidationNotEqualError") [a, b, d, .str place])) env = (do
      let _ ← eval P c env a
      let _ ← eval P c env b
      let _ ← eval P c env d
      raise (.validation place)) := by rw [exec]
@[py ↓] theorem exec_expr_name (y m args) : exec P c (.expr (.call (.attr (.name y) m) args)) env = (do
    let _ ← eval P c env (.call (.attr (.name y) m) args)
    return .next env) := by
  rw [exec]
  intro o x e h; cases h

@[py ↓] theorem exec_expr_attr (o y m args) (h : m ≠ "append") :
    exec P c (.expr (.call (.attr (.attr o y) m) args)) env = (do
      let _ ← eval P c env (.call (.attr (.attr o y) m) args)
      return .next env) := by
  rw [exec]
  intro o x e h'; cases h'; exact h rfl

/-- `o.x.append(…)` -/
def append (o : Val) (x : String) (e : M Val) (env : Env) : M Flow :=
  match o with
  | .obj r => do
    match (← fetch r).attrs.lookup x with
    | some (.list _) => do
      let v ← e
      match (← fetch r).attrs.lookup x with
      | some (.list l) => do
        store r x (.list (l ++ [v]))
        return .next env
      | _ => raise .attribute
    | _ => raise .attribute
  | _ => raise .attribute

@[py ↓] theorem exec_append (o x e) : exec P c (.expr (.call (.attr (.attr o x) "append") [e])) env = (do
    append (← eval P c env o) x (eval P c env e) env) := by
  rw [exec]; rfl

@[py ↓] theorem append_obj (r x e) : append (.obj r) x e env = (do
    match (← fetch r).attrs.lookup x with
    | some (.list _) => do
      let v ← e
      match (← fetch r).attrs.lookup x with
      | some (.list l) => do
        store r x (.list (l ++ [v]))
        return .next env
      | _ => raise .attribute
    | _ => raise .attribute) := rfl

@[py ↓] theorem getattr_obj (r x) : getattr c (.obj r) x = (do
    match (← fetch r).attrs.lookup x with
    | some v => return v
    | none => c.property r x) := rfl

@[py] theorem getattr_value (e v) : getattr c (.pv (.enum e v)) "value" = pure (.pv (.int (Int.ofNat v))) := by rw [getattr]

@[py] theorem invoke_obj (r m args) : invoke c (.obj r) m args = c.method r m args := by rw [invoke]
@[py] theorem invoke_io (k m args) : invoke c (.io k) m args = ioMethod k m args := by rw [invoke]
end

/-! ### Loops -/

/-- If it raised, the objects from the number `n` on are lost. -/
def forget (n : Nat) (o : Out α) : Out α :=
  match o with
  | .ok a σ => .ok a σ
  | .raise e σ => .raise e ⟨σ.heap.take n, σ.streams⟩

@[py] theorem forget_ok (n : Nat) (a : α) (σ : State) : forget n (.ok a σ) = .ok a σ := rfl
@[py] theorem forget_raise (H T : List Obj) (e : PyErr) (S : List Stream) :
    forget H.length (.raise e ⟨H ++ T, S⟩ : Out α) = .raise e ⟨H, S⟩ := by simp [forget]
@[py] theorem forget_raise_set (H T : List Obj) (p : Nat) (o' : Obj) (e : PyErr) (S : List Stream) :
    forget H.length (.raise e ⟨H.set p o' ++ T, S⟩ : Out α) = .raise e ⟨H.set p o', S⟩ := by
  have := forget_raise (α := α) (H.set p o') T e S
  rwa [List.length_set] at this
@[py] theorem forget_after (n : Nat) (r : Rd α) (s : Stream) (err : PyErr → Stream → Out β) (ok : α → Stream → Out β) :
    forget n (after r s err ok) = after r s (fun e s => forget n (err e s)) (fun a s => forget n (ok a s)) := by
  unfold after; rcases r s with ⟨_ | _, _⟩ <;> rfl
@[py] theorem forget_ite (n : Nat) (c : Prop) [Decidable c] (x y : Out β) :
    forget n (if c then x else y) = if c then forget n x else forget n y := by split <;> rfl


section
variable (P : Program) (c : Calls)

theorem var_upsert (x y : String) (v : Val) (env : Env) : var (upsert x v env) y = if y = x then pure v else var env y := by
  induction env with
  | nil => rw [upsert_nil, var_cons]
  | cons z env ih =>
    obtain ⟨z, w⟩ := z
    rw [upsert_cons]
    by_cases h : x = z
    · subst h
      rw [if_pos rfl, var_cons, var_cons]
      split <;> rfl
    · rw [if_neg h, var_cons, var_cons, ih]
      by_cases h1 : y = z
      · subst h1
        rw [if_pos rfl, if_pos rfl, if_neg (Ne.symm h)]
      · rw [if_neg h1, if_neg h1]

/-- `for x in l: body` -/
def loopFor (body : List Stmt) (x : String) (l : List Val) (env : Env) : M Flow := forLoop (fun env => execs P c body env) x l env

/-- `for x in v: body` -/
def iterate (body : List Stmt) (x : String) (v : Val) (env : Env) : M Flow :=
  match v with
  | .list l => loopFor P c body x l env
  | _ => raise .attribute

@[py ↓] theorem exec_for (x it body env) : exec P c (.for_ x it body) env = (do iterate P c body x (← eval P c env it) env) := by
  rw [exec]; rfl
@[py] theorem iterate_list (body x l env) : iterate P c body x (.list l) env = loopFor P c body x l env := rfl

/-- `range(n)` -/
def counted (n : Nat) : List Val := (List.range n).map fun (i : Nat) => .pv (.int i)

@[py] theorem builtin_range (n : Nat) : builtin "range" [.pv (.int (n : Int))] = pure (.list (counted n)) := rfl

@[py] theorem bind_loopFor (body x l env σ) (f : Flow → State → Out β) (g : β → State → Out γ) :
    (((loopFor P c body x l env).run σ).bind f).bind g = ((loopFor P c body x l env).run σ).bind fun a σ => (f a σ).bind g :=
  bind_bind _ _ _

theorem for_reads {P : Program} {c : Calls} {body : List Stmt} {x : String} (hx : "self" ≠ x) {p : Nat} {r : Rd α} {N : Nat}
    (st : List α → Stream → State) {E : PyErr → Stream → Out β}
    (herr : ∀ e l s, forget N (Out.raise e (st l s)) = E e s)
    (hbody : ∀ env l s, var env "self" = pure (.obj p) → (execs P c body env).run (st l s) =
      after r s (fun e s' => .raise e (st l s')) (fun a s' => .ok (.next env) (st (l ++ [a]) s')))
    {f : Flow → State → Out β} {g : List α → Stream → Out β}
    (hf : ∀ env l s, var env "self" = pure (.obj p) → forget N (f (.next env) (st l s)) = g l s)
    (n : Nat) (env : Env) (s : Stream) (henv : var env "self" = pure (.obj p)) :
    forget N (((loopFor P c body x (counted n) env).run (st [] s)).bind f) = after (repeatN n r) s E g := by
  have key : ∀ (vs : List Val) (l : List α) (env : Env) (s : Stream), var env "self" = pure (.obj p) →
      forget N (((loopFor P c body x vs env).run (st l s)).bind f) =
        after (repeatN vs.length r) s E fun xs s' => g (l ++ xs) s' := by
    intro vs
    induction vs with
    | nil =>
      intro l env s henv
      simp only [loopFor, forLoop, List.length_nil, repeatN, run_pure, bind_ok, after_pure, List.append_nil]
      exact hf env l s henv
    | cons v vs ih =>
      intro l env s henv
      have h1 : var (upsert x v env) "self" = pure (.obj p) := by rw [var_upsert, if_neg hx, henv]
      simp only [loopFor, forLoop, List.length_cons, repeatN, run_bind, hbody _ _ _ h1, bind_after, bind_ok, bind_raise,
        forget_after, herr, after_bind, after_pure]
      refine after_congr (fun _ _ => rfl) fun a s' => ?_
      have := ih (l ++ [a]) _ s' h1
      simp only [List.append_assoc, List.singleton_append] at this
      exact this
  have := key (counted n) [] env s henv
  simpa [counted] using this

/-- `while t: body` -/
def loopWhile (t : Expr) (body : List Stmt) (env : Env) : M Flow := do
  let n ← loopBound env
  whileLoop (fun env => do return truthy (← eval P c env t)) (fun env => execs P c body env) n env

@[py ↓] theorem exec_while (t body env) : exec P c (.while_ t body) env = loopWhile P c t body env := by
  rw [exec]; rfl

@[py] theorem bind_loopWhile (t body env σ) (f : Flow → State → Out β) (g : β → State → Out γ) :
    (((loopWhile P c t body env).run σ).bind f).bind g = ((loopWhile P c t body env).run σ).bind fun a σ => (f a σ).bind g :=
  bind_bind _ _ _

theorem lookup_of_var {env : Env} {x : String} {v : Val} (h : var env x = pure v) : env.lookup x = some v := by
  unfold var at h
  cases hl : env.lookup x with
  | none =>
    rw [hl] at h
    have := congrFun h ⟨[], []⟩
    cases this
  | some w =>
    rw [hl] at h
    have := congrFun h ⟨[], []⟩
    cases this; rfl

theorem run_loopBound {env : Env} (H T : List Obj) (cls : String) (A : List (String × Val)) (S : List Stream) (k : Nat)
    (hk : k < S.length) (s : Stream) (h : var env "self" = pure (.obj H.length)) (ha : A.lookup "_io" = some (.io k)) :
    (loopBound env).run ⟨H ++ ⟨cls, A⟩ :: T, S.set k s⟩ = .ok (s.buf.length + 2) ⟨H ++ ⟨cls, A⟩ :: T, S.set k s⟩ := by
  unfold loopBound M.run
  rw [lookup_of_var h]
  simp [ha, hk]

/-- What the environment of a loop must have. -/
def Counting (p : Nat) (env : Env) : Prop := var env "self" = pure (.obj p) ∧ ∃ i : Int, var env "i" = pure (.pv (.int i))

theorem Counting.upsert {p : Nat} {env : Env} (h : Counting p env) (x : String) (v : Val) (hs : x ≠ "self") (hi : x ≠ "i") :
    Counting p (upsert x v env) := by
  obtain ⟨h1, i, h2⟩ := h
  refine ⟨?_, i, ?_⟩
  · rw [var_upsert, if_neg (Ne.symm hs), h1]
  · rw [var_upsert, if_neg (Ne.symm hi), h2]

theorem Counting.next {p : Nat} {env : Env} (h : Counting p env) (i : Int) :
    Counting p (Py.upsert "i" (.pv (.int i)) env) := by
  refine ⟨?_, i, ?_⟩
  · rw [var_upsert, if_neg (by decide), h.1]
  · rw [var_upsert, if_pos rfl]

@[py] theorem truthy_bool (b : Bool) : truthy (.pv (.bool b)) = b := rfl

theorem until_reads {P : Program} {c : Calls} {body : List Stmt} {p : Nat} {r : Rd α} {stop : α → Rd Bool} {N : Nat}
    (st : List α → Stream → State) {E : PyErr → Stream → Out β}
    (herr : ∀ e l s, forget N (Out.raise e (st l s)) = E e s)
    (hbound : ∀ env s, Counting p env → (loopBound env).run (st [] s) = .ok (s.buf.length + 2) (st [] s))
    (hbody : ∀ env l s, Counting p env → ∃ e1 e2 : α → Env, (∀ a, Counting p (e1 a)) ∧ (∀ a, Counting p (e2 a)) ∧
      (execs P c body env).run (st l s) =
        after r s (fun e s' => .raise e (st l s')) (fun a s' => after (stop a) s' (fun e s'' => .raise e (st (l ++ [a]) s''))
          (fun b s'' => .ok (if b = true then .brk (e1 a) else .next (e2 a)) (st (l ++ [a]) s''))))
    {f : Flow → State → Out β} {g : List α → Stream → Out β}
    (hf : ∀ env l s, Counting p env → forget N (f (.next env) (st l s)) = g l s)
    (env : Env) (s : Stream) (henv : Counting p env) {σ : State} (hσ : σ = st [] s) :
    forget N (((loopWhile P c (.bool true) body env).run σ).bind f) = after (repeatUntil (s.buf.length + 2) r stop) s E g := by
  subst hσ
  obtain ⟨cnd, hcnd, htrue⟩ : ∃ cnd : Env → M Bool, cnd = (fun env => do return truthy (← eval P c env (.bool true))) ∧ ∀ env, cnd env = pure true :=
    ⟨_, rfl, fun env => by rw [eval_bool]; rfl⟩
  have key : ∀ (n : Nat) (l : List α) (env : Env) (s : Stream), Counting p env →
      forget N (((whileLoop cnd (fun env => execs P c body env) n env).run (st l s)).bind f) =
        after (repeatUntil n r stop) s E fun xs s' => g (l ++ xs) s' := by
    intro n
    induction n with
    | zero =>
      intro l env s henv
      rw [whileLoop, repeatUntil]
      simp only [htrue, run_bind, run_pure, bind_ok, if_true, run_raise, bind_raise, after_throw]
      exact herr _ _ _
    | succ n ih =>
      intro l env s henv
      obtain ⟨e1, e2, h1, h2, hb⟩ := hbody env l s henv
      rw [whileLoop, repeatUntil]
      simp only [htrue, run_bind, run_pure, bind_ok, if_true, bind_after, hb, after_bind, bind_raise, forget_after, herr]
      refine after_congr (fun _ _ => rfl) fun a s' => ?_
      refine after_congr (fun _ _ => rfl) fun b s'' => ?_
      cases b with
      | true =>
        simp only [run_pure, bind_ok, if_true, after_pure]
        exact hf _ _ _ (h1 a)
      | false =>
        simp only [Bool.false_eq_true, if_false, after_bind, after_pure]
        have := ih (l ++ [a]) (e2 a) s'' (h2 a)
        simp only [List.append_assoc, List.singleton_append] at this
        exact this
  unfold loopWhile
  rw [run_bind, hbound _ _ henv, bind_ok, ← hcnd]
  have := key (s.buf.length + 2) [] env s henv
  simpa using this

theorem eos_reads {P : Program} {c : Calls} {t : Expr} {body : List Stmt} {p : Nat} {r : Rd α} {N : Nat}
    (st : List α → Stream → State) {E : PyErr → Stream → Out β}
    (herr : ∀ e l s, forget N (Out.raise e (st l s)) = E e s)
    (hbound : ∀ env s, Counting p env → (loopBound env).run (st [] s) = .ok (s.buf.length + 2) (st [] s))
    (hcond : ∀ env l s, Counting p env → (eval P c env t).run (st l s) =
      after isEof s (fun e s' => .raise e (st l s')) (fun b s' => .ok (.pv (.bool (!b))) (st l s')))
    (hbody : ∀ env l s, Counting p env → ∃ env', Counting p env' ∧
      (execs P c body env).run (st l s) =
        after r s (fun e s' => .raise e (st l s')) (fun a s' => .ok (.next env') (st (l ++ [a]) s')))
    {f : Flow → State → Out β} {g : List α → Stream → Out β}
    (hf : ∀ env l s, Counting p env → forget N (f (.next env) (st l s)) = g l s)
    (env : Env) (s : Stream) (henv : Counting p env) {σ : State} (hσ : σ = st [] s) :
    forget N (((loopWhile P c t body env).run σ).bind f) = after (repeatEos (s.buf.length + 2) r) s E g := by
  subst hσ
  have key : ∀ (n : Nat) (l : List α) (env : Env) (s : Stream), Counting p env →
      forget N (((whileLoop (fun env => do return truthy (← eval P c env t)) (fun env => execs P c body env) n env).run (st l s)).bind f) =
        after (repeatEos n r) s E fun xs s' => g (l ++ xs) s' := by
    intro n
    induction n with
    | zero =>
      intro l env s henv
      rw [whileLoop, repeatEos]
      simp only [hcond _ _ _ henv, run_bind, run_pure, bind_ok, bind_after, forget_after, bind_raise, after_bind, after_ite, truthy_bool, herr]
      refine after_congr (fun _ _ => rfl) fun b s' => ?_
      cases b with
      | true =>
        simp only [Bool.not_true, Bool.false_eq_true, if_false, if_true, run_pure, bind_ok, after_pure, List.append_nil]
        exact hf _ _ _ henv
      | false =>
        simp only [Bool.not_false, Bool.false_eq_true, if_false, if_true, run_raise, bind_raise, after_throw]
        exact herr _ _ _
    | succ n ih =>
      intro l env s henv
      rw [whileLoop, repeatEos]
      simp only [hcond _ _ _ henv, run_bind, run_pure, bind_ok, bind_after, forget_after, bind_raise, after_bind, after_ite, truthy_bool, herr]
      refine after_congr (fun _ _ => rfl) fun b s' => ?_
      cases b with
      | true =>
        simp only [Bool.not_true, Bool.false_eq_true, if_false, if_true, run_pure, bind_ok, after_pure, List.append_nil]
        exact hf _ _ _ henv
      | false =>
        obtain ⟨env', h1, hb⟩ := hbody env l s' henv
        simp only [Bool.not_false, Bool.false_eq_true, if_false, if_true, run_bind, hb, bind_after, bind_ok, bind_raise, forget_after, herr,
          after_pure]
        refine after_congr (fun _ _ => rfl) fun a s'' => ?_
        have := ih (l ++ [a]) env' s'' h1
        simp only [List.append_assoc, List.singleton_append] at this
        exact this
  unfold loopWhile
  rw [run_bind, hbound _ _ henv, bind_ok]
  have := key (s.buf.length + 2) [] env s henv
  simpa using this

theorem after_isEof (s : Stream) (err : PyErr → Stream → Out γ) (ok : Bool → Stream → Out γ) :
    after isEof s err ok = ok (if s.bitsLeft > 0 then false else decide (s.buf.length ≤ s.pos)) s := rfl
@[py] theorem after_loopFuel (s : Stream) (err : PyErr → Stream → Out γ) (ok : Nat → Stream → Out γ) :
    after loopFuel s err ok = ok (s.buf.length + 2) s := rfl
end

/-! ### Constructors -/

/-- The body of every `__init__`. -/
def init : Function := ⟨["self", "_io", "_parent", "_root"],
  [.setattr (.name "self") "_io" (.name "_io"),
   .setattr (.name "self") "_parent" (.name "_parent"),
   .setattr (.name "self") "_root" (.ifExp (.name "_root") (.name "_root") (.name "self")),
   .expr (.call (.attr (.name "self") "_read") [])]⟩

theorem run_discard (m : M α) (σ : State) : (discard m).run σ = forget σ.heap.length (m.run σ) := by
  unfold M.run discard forget
  cases m σ <;> rfl

theorem run_alloc (cls : String) (H : List Obj) (S : List Stream) :
    (alloc cls).run ⟨H, S⟩ = .ok H.length ⟨H ++ [⟨cls, []⟩], S⟩ := rfl

@[py] theorem calls_method (P : Program) (n r : Nat) (m : String) (args : List Val) :
    (calls P (n + 1)).method r m args = (do
      match P.method (← fetch r).cls m with
      | some f => f.call P (calls P n) (.obj r :: args)
      | none => raise .attribute) := rfl

@[py] theorem calls_property (P : Program) (n r : Nat) (x : String) :
    (calls P (n + 1)).property r x = (do
      match P.property (← fetch r).cls x with
      | some f => f.call P (calls P n) [.obj r]
      | none => raise .attribute) := rfl

/-- What a function returns. -/
def returned : Flow → M Val
  | .ret v => return v
  | _ => return .pv .none

@[py] theorem returned_ret (v : Val) : returned (.ret v) = pure v := rfl
@[py] theorem returned_next (env : Env) : returned (.next env) = pure (.pv .none) := rfl

@[py] theorem call_self (P : Program) (c : Calls) (body : List Stmt) (r : Nat) :
    (Function.call P c ⟨["self"], body⟩ [.obj r]) = (do returned (← execs P c body [("self", .obj r)])) := rfl

theorem method_of (P : Program) (cls m : String) (d : ClassDef) (h : P.class cls = some d) : P.method cls m = d.methods.lookup m := by
  unfold Program.method
  rw [h]; rfl

theorem property_of (P : Program) (cls m : String) (d : ClassDef) (h : P.class cls = some d) :
    P.property cls m = d.properties.lookup m := by
  unfold Program.property
  rw [h]; rfl

theorem construct_eq (P : Program) (n : Nat) (cls : String) (d : ClassDef) (body : List Stmt) (hd : P.class cls = some d)
    (hi : d.methods.lookup "__init__" = some init) (hr : d.methods.lookup "_read" = some ⟨["self"], body⟩)
    (k : Nat) (parent root : Val) (H : List Obj) (S : List Stream) :
    ((calls P (n + 2)).construct cls [.io k, parent, root]).run ⟨H, S⟩ =
      forget H.length (((execs P (calls P n) body [("self", .obj H.length)]).run
        ⟨H ++ [⟨cls, [("_io", .io k), ("_parent", parent), ("_root", rootOf root H.length)]⟩], S⟩).bind
          fun _ σ => .ok (.obj H.length) σ) := by
  rw [← method_of P cls _ d hd] at hi hr
  rw [calls]
  dsimp only
  rw [run_discard, hi]
  dsimp only
  rw [run_bind, run_alloc, bind_ok]
  simp only [py, Function.call, init, List.zip_cons_cons, List.zip_nil_left, List.length_cons, List.length_nil, 
    Nat.reduceAdd, Nat.reduceSub, List.replicate, List.append_nil, String.reduceEq, if_true, if_false, hr]
  unfold rootOf
  split
  · rcases (execs P (calls P n) body [("self", .obj H.length)]).run _ with ⟨f, σ⟩ | ⟨e, σ⟩
    · cases f <;> rfl
    · rfl
  · rcases (execs P (calls P n) body [("self", .obj H.length)]).run _ with ⟨f, σ⟩ | ⟨e, σ⟩
    · cases f <;> rfl
    · rfl

/-- `X(io)` is `X(io, None, None)`. -/
theorem construct_short (P : Program) (n : Nat) (cls : String) (d : ClassDef) (hd : P.class cls = some d)
    (hi : d.methods.lookup "__init__" = some init) (k : Nat) :
    (calls P (n + 1)).construct cls [.io k] = (calls P (n + 1)).construct cls [.io k, .pv .none, .pv .none] := by
  rw [← method_of P cls _ d hd] at hi
  simp only [calls, hi]
  rfl

/-! ### Objects in memory -/

/-- The outcome of making the object `x`: it is in memory, with its parts, behind the objects that were there. -/
def built (toPy : α → PyVal) (k : Nat) (parent root : Val) (H : List Obj) (S : List Stream) (x : α) (s : Stream) : Out Val :=
  .ok (.obj H.length) ⟨H ++ placeObj (.io k) parent (rootOf root H.length) H.length (toPy x), S.set k s⟩

@[py] theorem built_eq (toPy : α → PyVal) (k : Nat) (parent root : Val) (H : List Obj) (S : List Stream) (x : α) (s : Stream) :
    built toPy k parent root H S x s =
      .ok (.obj H.length) ⟨H ++ placeObj (.io k) parent (rootOf root H.length) H.length (toPy x), S.set k s⟩ := rfl

section
variable (io parent root : Val) (self b : Nat)

/-- The attributes of an object. -/
def values (l : List (String × PyVal)) : List (String × Val) := (placeAttrs io parent root self b l).1
/-- The objects in its attributes. -/
def parts (l : List (String × PyVal)) : List Obj := (placeAttrs io parent root self b l).2

@[py ↓] theorem placeObj_object (c : String) (ls : List (List (String × PyVal))) :
    placeObj io parent root b (.object c ls) =
      ⟨c, ("_io", io) :: ("_parent", parent) :: ("_root", root) :: values io parent root b (b + 1) ls.flatten⟩ ::
        parts io parent root b (b + 1) ls.flatten := by
  simp [placeObj, PyVal.object, placeAttrs, values, parts]

@[py] theorem values_nil : values io parent root self b [] = [] := by rw [values, placeAttrs]
@[py] theorem parts_nil : parts io parent root self b [] = [] := by rw [parts, placeAttrs]

@[py] theorem values_cons (x : String) (v : PyVal) (rest) (h1 : x ≠ "_io") (h2 : x ≠ "_parent") (h3 : x ≠ "_root") :
    values io parent root self b ((x, v) :: rest) =
      (x, (place io (.obj self) root b v).1) :: values io parent root self (b + objects v) rest := by
  rw [values, placeAttrs, if_neg h1, if_neg h2, if_neg h3, length_place, values]

@[py] theorem parts_cons (x : String) (v : PyVal) (rest) (h1 : x ≠ "_io") (h2 : x ≠ "_parent") (h3 : x ≠ "_root") :
    parts io parent root self b ((x, v) :: rest) =
      (place io (.obj self) root b v).2 ++ parts io parent root self (b + objects v) rest := by
  rw [parts, placeAttrs, if_neg h1, if_neg h2, if_neg h3, length_place, parts]

@[py] theorem objects_none : objects .none = 0 := by rw [objects] <;> simp
@[py] theorem objects_bool (v) : objects (.bool v) = 0 := by rw [objects] <;> simp
@[py] theorem objects_int (v) : objects (.int v) = 0 := by rw [objects] <;> simp
@[py] theorem objects_str (v) : objects (.str v) = 0 := by rw [objects] <;> simp
@[py] theorem objects_bytes (v) : objects (.bytes v) = 0 := by rw [objects] <;> simp
@[py] theorem objects_enum {E : Type} [PyEnum E] (c : String) (v : EnumVal E) : objects (EnumVal.toPy c v) = 0 := by
  cases v <;> rw [EnumVal.toPy, objects] <;> simp
@[py] theorem objects_enum' (c : String) (v : Nat) : objects (.enum c v) = 0 := by rw [objects] <;> simp

@[py] theorem place_none : place io parent root b .none = (.pv .none, []) := by rw [place] <;> simp
@[py] theorem place_bool (v) : place io parent root b (.bool v) = (.pv (.bool v), []) := by rw [place] <;> simp
@[py] theorem place_int (v) : place io parent root b (.int v) = (.pv (.int v), []) := by rw [place] <;> simp
@[py] theorem place_str (v) : place io parent root b (.str v) = (.pv (.str v), []) := by rw [place] <;> simp
@[py] theorem place_bytes (v) : place io parent root b (.bytes v) = (.pv (.bytes v), []) := by rw [place] <;> simp
@[py] theorem place_enum {E : Type} [PyEnum E] (c : String) (v : EnumVal E) :
    place io parent root b (EnumVal.toPy c v) = (.pv (EnumVal.toPy c v), []) := by
  cases v <;> rw [EnumVal.toPy, place] <;> simp
@[py] theorem place_enum' (c : String) (v : Nat) : place io parent root b (.enum c v) = (.pv (.enum c v), []) := by
  rw [place] <;> simp

theorem place_file (c : String) (ls) (h : c ∈ fileClasses) :
    place io parent root b (.object c ls) = (.obj b, placeObj io (.pv .none) (.obj b) b (.object c ls)) := by
  rw [PyVal.object, place, if_pos h, placeObj]

theorem place_part (c : String) (ls) (h : c ∉ fileClasses) :
    place io parent root b (.object c ls) = (.obj b, placeObj io parent root b (.object c ls)) := by
  rw [PyVal.object, place, if_neg h, placeObj]

@[py] theorem rootOf_none : rootOf (.pv .none) self = .obj self := rfl
@[py] theorem rootOf_obj (r : Nat) : rootOf (.obj r) self = .obj r := rfl
@[py] theorem rootOf_rootOf : rootOf (rootOf root b) self = rootOf root b := by
  unfold rootOf
  by_cases h : truthy root = true
  · rw [if_pos h, if_pos h]
  · rw [if_neg h]; rfl
end

/-- The object behind another one. -/
theorem fetch_part (H T : List Obj) (o : Obj) (io parent root : Val) (b : Nat) (c : String) (ls : List (List (String × PyVal))) (S : List Stream) :
    (fetch (H.length + 1)).run ⟨H ++ o :: (placeObj io parent root b (.object c ls) ++ T), S⟩ =
      .ok ⟨c, ("_io", io) :: ("_parent", parent) :: ("_root", root) :: values io parent root b (b + 1) ls.flatten⟩
        ⟨H ++ o :: (placeObj io parent root b (.object c ls) ++ T), S⟩ := by
  rw [placeObj_object]
  simp [M.run, fetch]

theorem fetch_part' (H : List Obj) (o : Obj) (io parent root : Val) (b : Nat) (c : String) (ls : List (List (String × PyVal))) (S : List Stream) :
    (fetch (H.length + 1)).run ⟨H ++ o :: placeObj io parent root b (.object c ls), S⟩ =
      .ok ⟨c, ("_io", io) :: ("_parent", parent) :: ("_root", root) :: values io parent root b (b + 1) ls.flatten⟩
        ⟨H ++ o :: placeObj io parent root b (.object c ls), S⟩ := by
  rw [placeObj_object]
  simp [M.run, fetch]

theorem placeItems_append (io parent root : Val) (b : Nat) (l m : List PyVal) :
    placeItems io parent root b (l ++ m) =
      ((placeItems io parent root b l).1 ++ (placeItems io parent root (b + objectsOf l) m).1,
        (placeItems io parent root b l).2 ++ (placeItems io parent root (b + objectsOf l) m).2) := by
  induction l generalizing b with
  | nil => simp [placeItems, objectsOf]
  | cons v l ih =>
    rw [List.cons_append, placeItems, placeItems, ih, objectsOf, length_place]
    simp [Nat.add_assoc]

/-- The values in a list of parts. -/
def itemValues (io parent root : Val) (b : Nat) (l : List PyVal) : List Val := (placeItems io parent root b l).1
/-- The objects in a list of parts. -/
def itemParts (io parent root : Val) (b : Nat) (l : List PyVal) : List Obj := (placeItems io parent root b l).2

section
variable (io parent root : Val) (b : Nat)
@[py] theorem place_list (l : List PyVal) : place io parent root b (.list l) = (.list (itemValues io parent root b l), itemParts io parent root b l) := by
  rw [place]; rfl
@[py] theorem objects_list (l : List PyVal) : objects (.list l) = objectsOf l := by rw [objects]
@[py] theorem itemValues_nil : itemValues io parent root b [] = [] := by rw [itemValues, placeItems]
@[py] theorem itemParts_nil : itemParts io parent root b [] = [] := by rw [itemParts, placeItems]
@[py] theorem objectsOf_nil : objectsOf [] = 0 := by rw [objectsOf]
@[py] theorem length_itemParts (l : List PyVal) : (itemParts io parent root b l).length = objectsOf l := length_placeItems _ _ _ _ _
theorem fetch_item (H : List Obj) (o : Obj) (io' parent' root' : Val) (b' : Nat) (l : List PyVal) (c : String) (ls : List (List (String × PyVal))) (S : List Stream) :
    (fetch (H.length + (1 + objectsOf l))).run ⟨H ++ o :: (itemParts io' parent' root' b' l ++ placeObj io parent root b (.object c ls)), S⟩ =
      .ok ⟨c, ("_io", io) :: ("_parent", parent) :: ("_root", root) :: values io parent root b (b + 1) ls.flatten⟩
        ⟨H ++ o :: (itemParts io' parent' root' b' l ++ placeObj io parent root b (.object c ls)), S⟩ := by
  have h : (H ++ o :: (itemParts io' parent' root' b' l ++ placeObj io parent root b (.object c ls)))[H.length + (1 + objectsOf l)]? =
      (placeObj io parent root b (.object c ls))[0]? := by
    rw [List.getElem?_append_right (by omega), show H.length + (1 + objectsOf l) - H.length = objectsOf l + 1 by omega, List.getElem?_cons_succ,
      List.getElem?_append_right (by rw [length_itemParts]; omega), length_itemParts, Nat.sub_self]
  rw [placeObj_object] at h ⊢
  simp only [List.getElem?_cons_zero] at h
  unfold fetch M.run
  dsimp only
  rw [h]

@[py] theorem itemValues_snoc (l : List PyVal) (v : PyVal) : itemValues io parent root b (l ++ [v]) =
    itemValues io parent root b l ++ [(place io parent root (b + objectsOf l) v).1] := by
  simp [itemValues, placeItems_append, placeItems]
@[py] theorem itemParts_snoc (l : List PyVal) (v : PyVal) : itemParts io parent root b (l ++ [v]) =
    itemParts io parent root b l ++ (place io parent root (b + objectsOf l) v).2 := by
  simp [itemParts, placeItems_append, placeItems]
end

/-- An enumeration of the source has the same values as that of the model. -/
theorem resolve_eq {E : Type} [PyEnum E] (d : EnumDef)
    (h : d.members.map (·.2) ⊆ (PyEnum.all (E := E)).map PyEnum.value ∧ (PyEnum.all (E := E)).map PyEnum.value ⊆ d.members.map (·.2))
    (v : Nat) : d.resolve v = EnumVal.toPy d.name (resolveEnum E v) := by
  unfold EnumDef.resolve resolveEnum
  cases hf : (PyEnum.all (E := E)).find? (fun e => PyEnum.value e == v) with
  | some e =>
    have h1 := List.find?_some hf
    have h2 := List.mem_of_find?_eq_some hf
    simp only [beq_iff_eq] at h1
    have h3 := h.2 (List.mem_map.2 ⟨e, h2, h1⟩)
    obtain ⟨m, hm, hv⟩ := List.mem_map.1 h3
    rw [if_pos (List.any_eq_true.2 ⟨m, hm, by simp [hv]⟩)]
    simp [EnumVal.toPy, h1]
  | none =>
    rw [List.find?_eq_none] at hf
    rw [if_neg]
    · rfl
    · intro ha
      obtain ⟨m, hm, hv⟩ := List.any_eq_true.1 ha
      simp only [beq_iff_eq] at hv
      obtain ⟨e, he, hv'⟩ := List.mem_map.1 (h.1 (List.mem_map.2 ⟨m, hm, hv⟩))
      exact hf e he (by simp [hv'])

theorem run_resolve {E : Type} [PyEnum E] {q : String} (d : EnumDef) (hd : library.enums.find? (fun d => d.qualified == q) = some d)
    (h : d.members.map (·.2) ⊆ (PyEnum.all (E := E)).map PyEnum.value ∧ (PyEnum.all (E := E)).map PyEnum.value ⊆ d.members.map (·.2))
    (v : Nat) : resolve library q (.pv (.int (.ofNat v))) = pure (.pv (EnumVal.toPy d.name (resolveEnum E v))) := by
  unfold resolve
  rw [hd]
  simp [resolve_eq d h]

/-! ### Streams -/

section
variable (k : Nat)

@[py] theorem io_u1 : ioMethod k "read_u1" [] = (do return .pv (.int ((← onStream k readU1 : Nat) : Int))) := rfl
@[py] theorem io_u2be : ioMethod k "read_u2be" [] = (do return .pv (.int ((← onStream k readU2be : Nat) : Int))) := rfl
@[py] theorem io_u2le : ioMethod k "read_u2le" [] = (do return .pv (.int ((← onStream k readU2le : Nat) : Int))) := rfl
@[py] theorem io_u4be : ioMethod k "read_u4be" [] = (do return .pv (.int ((← onStream k readU4be : Nat) : Int))) := rfl
@[py] theorem io_u4le : ioMethod k "read_u4le" [] = (do return .pv (.int ((← onStream k readU4le : Nat) : Int))) := rfl
@[py] theorem io_s2be : ioMethod k "read_s2be" [] = (do return .pv (.int (← onStream k readS2be))) := rfl
@[py] theorem io_bits (n : Nat) : ioMethod k "read_bits_int_be" [.pv (.int (no_index (OfNat.ofNat n)))] = (do
    return .pv (.int ((← onStream k (readBitsIntBe (OfNat.ofNat n)) : Nat) : Int))) := rfl
@[py] theorem io_bytes (n : Int) : ioMethod k "read_bytes" [.pv (.int n)] = (do
    return .pv (.bytes (← onStream k (readBytesInt n)))) := rfl
@[py] theorem io_full : ioMethod k "read_bytes_full" [] = (do return .pv (.bytes (← onStream k readBytesFull))) := rfl
@[py] theorem io_align : ioMethod k "align_to_byte" [] = (do onStream k alignToByte; return .pv .none) := rfl
@[py] theorem io_eof : ioMethod k "is_eof" [] = (do return .pv (.bool (← onStream k isEof))) := rfl
@[py] theorem io_pos : ioMethod k "pos" [] = (do return .pv (.int ((← onStream k posIo : Nat) : Int))) := rfl
@[py] theorem io_size : ioMethod k "size" [] = (do return .pv (.int ((← onStream k sizeIo : Nat) : Int))) := rfl
@[py] theorem io_seek (n : Nat) : ioMethod k "seek" [.pv (.int (n : Int))] = (do
    onStream k (seekIo n)
    return .pv .none) := rfl
@[py] theorem io_seek_lit (n : Nat) : ioMethod k "seek" [.pv (.int (no_index (OfNat.ofNat n)))] = (do
    onStream k (seekIo (OfNat.ofNat n))
    return .pv .none) := rfl
end

@[py] theorem io_seek_last (k m : Nat) : ioMethod k "seek" [.pv (.int ((m : Int) - 1))] = (do
    if m = 0 then raise .value else onStream k (seekIo (m - 1))
    return .pv .none) := by
  show (do
    if (m : Int) - 1 < 0 then raise .value else onStream k (seekIo ((m : Int) - 1).toNat)
    return Val.pv .none) = _
  by_cases h : m = 0
  · subst h; rfl
  · rw [if_neg (by omega), if_neg h, show ((m : Int) - 1).toNat = m - 1 by omega]

@[py] theorem readBytesInt_nat (n : Nat) : readBytesInt (n : Int) = readBytes n := by
  unfold readBytesInt readBytes
  rw [if_neg (Int.not_lt.2 (Int.natCast_nonneg n))]; rfl

@[py] theorem readBytesInt_lit (n : Nat) : readBytesInt (no_index (OfNat.ofNat n)) = readBytes (OfNat.ofNat n) := readBytesInt_nat n

/-! ### Values -/

/-- What follows a `decode`. -/
def chosen (o : Option PyStr) (bad : Out γ) (good : PyStr → Out γ) : Out γ :=
  match o with
  | some s => good s
  | none => bad

theorem chosen_congr {o : Option PyStr} {bad : Out γ} {good good' : PyStr → Out γ} (h : ∀ s, o = some s → good s = good' s) :
    chosen o bad good = chosen o bad good' := by
  cases o
  · rfl
  · exact h _ rfl

@[py] theorem bind_chosen (o : Option PyStr) (bad : Out α) (good : PyStr → Out α) (f : α → State → Out β) :
    (chosen o bad good).bind f = chosen o (bad.bind f) fun s => (good s).bind f := by cases o <;> rfl
@[py] theorem forget_chosen (n : Nat) (o : Option PyStr) (bad : Out α) (good : PyStr → Out α) :
    forget n (chosen o bad good) = chosen o (forget n bad) fun s => forget n (good s) := by cases o <;> rfl

@[py] theorem after_decodeWith (f : Bytes → Option PyStr) (r : Rd Bytes) (s : Stream) (err : PyErr → Stream → Out γ)
    (ok : PyStr → Stream → Out γ) :
    after (decodeWith f r) s err ok = after r s err fun b s' => chosen (f b) (err .unicode s') fun x => ok x s' := by
  unfold decodeWith
  rw [after_bind]
  refine after_congr (fun _ _ => rfl) fun b s' => ?_
  cases f b <;> rfl

theorem run_decode (c : Calls) (b : Bytes) (e : PyStr) (f : Bytes → Option PyStr) (h : codec (String.ofList e) = some f) (σ : State) :
    (invoke c (.pv (.bytes b)) "decode" [.pv (.str e)]).run σ =
      chosen (f b) (.raise .unicode σ) fun s => .ok (.pv (.str s)) σ := by
  rw [invoke, h]
  dsimp only
  cases f b <;> rfl

@[py] theorem run_decode_ascii (c : Calls) (b : Bytes) (σ : State) :
    (invoke c (.pv (.bytes b)) "decode" [.pv (.str "ASCII".toList)]).run σ =
      chosen (decodeAscii b) (.raise .unicode σ) fun s => .ok (.pv (.str s)) σ := run_decode _ _ _ _ rfl _
@[py] theorem run_decode_utf8 (c : Calls) (b : Bytes) (σ : State) :
    (invoke c (.pv (.bytes b)) "decode" [.pv (.str "UTF-8".toList)]).run σ =
      chosen (decodeUtf8 b) (.raise .unicode σ) fun s => .ok (.pv (.str s)) σ := run_decode _ _ _ _ rfl _
@[py] theorem run_decode_utf16le (c : Calls) (b : Bytes) (σ : State) :
    (invoke c (.pv (.bytes b)) "decode" [.pv (.str "UTF-16LE".toList)]).run σ =
      chosen (decodeUtf16le b) (.raise .unicode σ) fun s => .ok (.pv (.str s)) σ := run_decode _ _ _ _ rfl _
@[py] theorem run_decode_utf_16_le (c : Calls) (b : Bytes) (σ : State) :
    (invoke c (.pv (.bytes b)) "decode" [.pv (.str "utf-16-le".toList)]).run σ =
      chosen (decodeUtf16le b) (.raise .unicode σ) fun s => .ok (.pv (.str s)) σ := run_decode _ _ _ _ rfl _
@[py] theorem run_decode_utf_16_be (c : Calls) (b : Bytes) (σ : State) :
    (invoke c (.pv (.bytes b)) "decode" [.pv (.str "utf-16-be".toList)]).run σ =
      chosen (decodeUtf16be b) (.raise .unicode σ) fun s => .ok (.pv (.str s)) σ := run_decode _ _ _ _ rfl _

@[py] theorem after_validateEq [DecidableEq α] (v e : α) (p : String) (s : Stream) (err : PyErr → Stream → Out γ)
    (ok : Unit → Stream → Out γ) :
    after (validateEq v e p) s err ok = if v = e then ok () s else err (.validation p) s := by
  unfold validateEq
  split <;> rfl

@[py] theorem after_optionally (c : Bool) (r : Rd α) (s : Stream) (err : PyErr → Stream → Out γ) (ok : Option α → Stream → Out γ) :
    after (optionally c r) s err ok = if c = true then after r s err (fun x s' => ok (some x) s') else ok none s := by
  unfold optionally
  rw [after_ite]
  split
  · rw [after_bind]; rfl
  · rfl

@[py] theorem after_readFlag (s : Stream) (err : PyErr → Stream → Out γ) (ok : Bool → Stream → Out γ) :
    after readFlag s err ok = after (readBitsIntBe 1) s err fun v s' => ok (!decide (v = 0)) s' := by
  unfold readFlag
  rw [after_bind]
  refine after_congr (fun _ _ => rfl) fun v s' => ?_
  rw [after_pure, ← beq_eq_decide]; rfl

@[py] theorem after_asEnum (E : Type) [PyEnum E] (r : Rd Nat) (s : Stream) (err : PyErr → Stream → Out γ)
    (ok : EnumVal E → Stream → Out γ) :
    after (asEnum E r) s err ok = after r s err fun v s' => ok (resolveEnum E v) s' := by
  unfold asEnum
  rw [after_bind]; rfl

@[py] theorem truthy_obj (r : Nat) : truthy (.obj r) = true := rfl
@[py] theorem truthy_none : truthy (.pv .none) = false := rfl
@[py] theorem apply_eq (a b : Val) : CmpOp.apply .eq a b = pure (.pv (.bool (same a b))) := by rw [CmpOp.apply]
@[py] theorem apply_ne (a b : Val) : CmpOp.apply .ne a b = pure (.pv (.bool (!same a b))) := by rw [CmpOp.apply]
@[py] theorem apply_lt (a b : Int) : CmpOp.apply .lt (.pv (.int a)) (.pv (.int b)) = pure (.pv (.bool (decide (a < b)))) := by rw [CmpOp.apply]
@[py] theorem apply_le (a b : Int) : CmpOp.apply .le (.pv (.int a)) (.pv (.int b)) = pure (.pv (.bool (decide (a ≤ b)))) := by rw [CmpOp.apply]
@[py] theorem apply_gt (a b : Int) : CmpOp.apply .gt (.pv (.int a)) (.pv (.int b)) = pure (.pv (.bool (decide (b < a)))) := by rw [CmpOp.apply]
@[py] theorem apply_ge (a b : Int) : CmpOp.apply .ge (.pv (.int a)) (.pv (.int b)) = pure (.pv (.bool (decide (b ≤ a)))) := by rw [CmpOp.apply]
@[py] theorem apply_add (a b : Int) : BinOp.apply .add (.pv (.int a)) (.pv (.int b)) = pure (.pv (.int (a + b))) := by rw [BinOp.apply]
@[py] theorem apply_sub (a b : Int) : BinOp.apply .sub (.pv (.int a)) (.pv (.int b)) = pure (.pv (.int (a - b))) := by rw [BinOp.apply]

@[py] theorem apply_band (a n : Nat) : BinOp.apply .band (.pv (.int (a : Int))) (.pv (.int (no_index (OfNat.ofNat n)))) =
    pure (.pv (.int ((a &&& OfNat.ofNat n : Nat) : Int))) := rfl

theorem apply_shl_nat (a n : Nat) : BinOp.apply .shl (.pv (.int (a : Int))) (.pv (.int (n : Int))) =
    pure (.pv (.int ((a <<< n : Nat) : Int))) := by
  rw [Nat.shiftLeft_eq, BinOp.apply, if_neg (Int.not_lt.2 (Int.natCast_nonneg n))]
  rfl
@[py] theorem apply_shl (a n : Nat) : BinOp.apply .shl (.pv (.int (a : Int))) (.pv (.int (no_index (OfNat.ofNat n)))) =
    pure (.pv (.int ((a <<< OfNat.ofNat n : Nat) : Int))) := apply_shl_nat a n
@[py] theorem builtin_int_bool (b : Bool) : builtin "int" [.pv (.bool b)] = pure (.pv (.int ((b.toNat : Nat) : Int))) := rfl

@[py] theorem same_bytes (a b : Bytes) : same (.pv (.bytes a)) (.pv (.bytes b)) = decide (a = b) := by
  rw [same]; exact beq_eq_decide a b
@[py] theorem same_str (a b : PyStr) : same (.pv (.str a)) (.pv (.str b)) = decide (a = b) := by
  rw [same]; exact beq_eq_decide a b
@[py] theorem same_bool (a b : Bool) : same (.pv (.bool a)) (.pv (.bool b)) = decide (a = b) := by
  rw [same]; exact beq_eq_decide a b
@[py] theorem same_nat (a n : Nat) : same (.pv (.int (a : Int))) (.pv (.int (no_index (OfNat.ofNat n)))) = decide (a = OfNat.ofNat n) := by
  rw [same, Bool.eq_iff_iff]
  simp only [beq_iff_eq, decide_eq_true_eq]
  exact Int.ofNat_inj

theorem same_known {E : Type} [PyEnum E] [LawfulEnum E] [DecidableEq E] (c : String) (on : EnumVal E) (e : E) :
    same (.pv (EnumVal.toPy c on)) (.pv (.enum c (PyEnum.value e))) = decide (on = .known e) := by
  cases on with
  | known a =>
    rw [EnumVal.toPy, same, Bool.eq_iff_iff]
    simp only [Bool.and_eq_true, beq_iff_eq, true_and, decide_eq_true_eq, EnumVal.known.injEq]
    exact ⟨fun h => PyEnum.value_inj h, fun h => by rw [h]⟩
  | raw v => simp [EnumVal.toPy, same]

@[py] theorem builtin_hasattr (r : Nat) (x : String) : builtin "hasattr" [.obj r, .pv (.str x.toList)] = (do
    return .pv (.bool ((← fetch r).attrs.lookup x).isSome)) := by
  rw [builtin]
  simp only [String.ofList_toList]
@[py] theorem builtin_getattr (r : Nat) (x : String) (d : Val) : builtin "getattr" [.obj r, .pv (.str x.toList), d] = (do
    return ((← fetch r).attrs.lookup x).getD d) := by
  rw [builtin]
  simp only [String.ofList_toList]

/-! ### `or`, `and` -/

@[py] theorem or_decide (c : Prop) [Decidable c] (q : Bool) (σ : State) :
    (if c then Out.ok (Val.pv (.bool (decide c))) σ else .ok (Val.pv (.bool q)) σ) = .ok (Val.pv (.bool (decide c || q))) σ := by
  split <;> simp [*]
@[py] theorem or_bool (b q : Bool) (σ : State) :
    (if b = true then Out.ok (Val.pv (.bool b)) σ else .ok (Val.pv (.bool q)) σ) = .ok (Val.pv (.bool (b || q))) σ := by
  cases b <;> rfl
@[py] theorem and_decide (c : Prop) [Decidable c] (q : Bool) (σ : State) :
    (if c then Out.ok (Val.pv (.bool q)) σ else .ok (Val.pv (.bool (decide c))) σ) = .ok (Val.pv (.bool (decide c && q))) σ := by
  split <;> simp [*]
@[py] theorem and_bool (b q : Bool) (σ : State) :
    (if b = true then Out.ok (Val.pv (.bool q)) σ else .ok (Val.pv (.bool b)) σ) = .ok (Val.pv (.bool (b && q))) σ := by
  cases b <;> rfl

@[py] theorem and_false' (b q : Bool) (σ : State) :
    (if b = false then Out.ok (Val.pv (.bool q)) σ else .ok (Val.pv (.bool !b)) σ) = .ok (Val.pv (.bool (!b && q))) σ := by
  cases b <;> rfl

@[py] theorem natCast_le_lit (a n : Nat) : ((a : Int) ≤ no_index (OfNat.ofNat n)) = (a ≤ OfNat.ofNat n) :=
  propext Int.ofNat_le
@[py] theorem lit_le_natCast (a n : Nat) : (no_index (OfNat.ofNat n) ≤ (a : Int)) = (OfNat.ofNat n ≤ a) :=
  propext Int.ofNat_le
@[py] theorem natCast_lt_lit (a n : Nat) : ((a : Int) < no_index (OfNat.ofNat n)) = (a < OfNat.ofNat n) :=
  propext Int.ofNat_lt
@[py] theorem lit_lt_natCast (a n : Nat) : (no_index (OfNat.ofNat n) < (a : Int)) = (OfNat.ofNat n < a) :=
  propext Int.ofNat_lt

attribute [py] ge_iff_le gt_iff_lt Bool.or_eq_true Bool.and_eq_true length_placeObj List.lookup_nil Option.isSome_some Option.isSome_none Option.getD_some Option.getD_none if_true if_false Bool.false_eq_true reduceIte List.length_append List.length_cons List.length_nil
  List.append_assoc List.cons_append List.nil_append List.append_nil Nat.add_zero Nat.zero_add Int.ofNat_eq_natCast List.length_set List.map_nil List.map_cons List.map_append
  List.flatten_cons List.flatten_nil PyVal.attr PyVal.optAttr ne_eq not_false_eq_true decide_eq_true_eq Bool.not_eq_true'
  decide_eq_false_iff_not ite_not Bool.not_true Bool.not_false Option.map_some Option.map_none
  Nat.add_assoc Nat.add_comm Nat.add_left_comm

/-- Computes what the source file does, and what the model does. -/
macro "py_run" "[" ts:Lean.Parser.Tactic.simpLemma,* "]" : tactic => `(tactic|
  simp -implicitDefEqProofs only [py, String.reduceEq, $ts,*])

/-- Goes into what both sides have in common. -/
macro "py_same" : tactic => `(tactic|
  repeat' (first | with_reducible rfl | refine after_congr (fun _ _ => rfl) fun _ _ => ?_ | refine chosen_congr fun _ _ => ?_ | refine if_congr Iff.rfl ?_ ?_))

end Dmr.Py
