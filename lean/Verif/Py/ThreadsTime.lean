import Verif.Py.ThreadsRun
import Verif.Py.TimeErase
/-
How often a thread touches the memory: at most three times for every step that Verif/Py/Time counts.
-/

set_option autoImplicit false

namespace Dmr.Py.Threads

variable {α β : Type}

/-- How the count goes on after something was done to the memory. -/
def opsNext {γ : Type} (k : γ → State → Nat) : Out γ → Nat
  | .ok a σ => k a σ + 1
  | .raise _ _ => 1

/-- How many steps a thread takes to its end when it is alone. -/
def R.ops : R α → State → Nat
  | .done _, _ => 0
  | .raise _, _ => 0
  | .fetch r k, σ => opsNext (fun a τ => (k a).ops τ) ((Py.fetch r).run σ)
  | .store r x v k, σ => opsNext (fun _ τ => k.ops τ) ((Py.store r x v).run σ)
  | .alloc c k, σ => opsNext (fun a τ => (k a).ops τ) ((Py.alloc c).run σ)
  | .stream b k, σ => opsNext (fun a τ => (k a).ops τ) ((Py.open_ b).run σ)
  | .io n m a k, σ => opsNext (fun a τ => (k a).ops τ) ((ioMethod n m (a.map .pv)).run σ)
  | .size n k, σ => opsNext (fun a τ => (k a).ops τ) ((lengthOf n).run σ)

/-- It has returned or raised. -/
def R.ended : R α → Bool
  | .done _ => true
  | .raise _ => true
  | _ => false

theorem ops_step (p : R α) (σ : State) : (p.step σ).1.ops (p.step σ).2 = p.ops σ - 1 := by
  cases p with
  | done a => rfl
  | raise e => rfl
  | fetch r k => rw [R.step, R.ops]; cases (Py.fetch r).run σ <;> simp [R.next, opsNext, R.ops]
  | store r x v k => rw [R.step, R.ops]; cases (Py.store r x v).run σ <;> simp [R.next, opsNext, R.ops]
  | alloc c k => rw [R.step, R.ops]; cases (Py.alloc c).run σ <;> simp [R.next, opsNext, R.ops]
  | stream b k => rw [R.step, R.ops]; cases (Py.open_ b).run σ <;> simp [R.next, opsNext, R.ops]
  | io n m a k => rw [R.step, R.ops]; cases (ioMethod n m (a.map .pv)).run σ <;> simp [R.next, opsNext, R.ops]
  | size n k => rw [R.step, R.ops]; cases (lengthOf n).run σ <;> simp [R.next, opsNext, R.ops]

theorem ops_zero (p : R α) (σ : State) (h : p.ops σ = 0) : p.ended = true := by
  cases p with
  | done a => rfl
  | raise e => rfl
  | fetch r k => rw [R.ops] at h; revert h; cases (Py.fetch r).run σ <;> simp [opsNext]
  | store r x v k => rw [R.ops] at h; revert h; cases (Py.store r x v).run σ <;> simp [opsNext]
  | alloc c k => rw [R.ops] at h; revert h; cases (Py.alloc c).run σ <;> simp [opsNext]
  | stream b k => rw [R.ops] at h; revert h; cases (Py.open_ b).run σ <;> simp [opsNext]
  | io n m a k => rw [R.ops] at h; revert h; cases (ioMethod n m (a.map .pv)).run σ <;> simp [opsNext]
  | size n k => rw [R.ops] at h; revert h; cases (lengthOf n).run σ <;> simp [opsNext]

/-- After so many steps it has ended. -/
theorem steps_ended : ∀ (n : Nat) (x : R α × State), x.1.ops x.2 ≤ n → (R.steps n x).1.ended = true
  | 0, x, h => ops_zero x.1 x.2 (Nat.le_zero.1 h)
  | n + 1, x, h => by
    rw [R.steps]
    refine steps_ended n _ ?_
    rw [ops_step]
    omega

theorem opsNext_bind {γ : Type} {k l : γ → State → Nat} (o : Out γ) (h : ∀ a σ, k a σ = l a σ) : opsNext k o = opsNext l o := by
  cases o
  · exact congrArg (· + 1) (h _ _)
  · rfl

/-- What follows, if it returns. -/
def after_ {γ : Type} (k : γ → State → Nat) : Out γ → Nat
  | .ok a σ => k a σ
  | .raise _ _ => 0

theorem ops_bind (p : R α) (f : α → R β) (σ : State) : (p >>= f).ops σ = p.ops σ + after_ (fun a τ => (f a).ops τ) (p.run σ) := by
  show (p.bind f).ops σ = _
  induction p generalizing σ with
  | done a => exact (Nat.zero_add _).symm
  | raise e => rfl
  | fetch r k ih => rw [R.bind, R.ops, R.ops, R.run]; cases (Py.fetch r).run σ <;> simp [opsNext, Out.bind, after_, ih]; omega
  | store r x v k ih => rw [R.bind, R.ops, R.ops, R.run]; cases (Py.store r x v).run σ <;> simp [opsNext, Out.bind, after_, ih]; omega
  | alloc c k ih => rw [R.bind, R.ops, R.ops, R.run]; cases (Py.alloc c).run σ <;> simp [opsNext, Out.bind, after_, ih]; omega
  | stream b k ih => rw [R.bind, R.ops, R.ops, R.run]; cases (Py.open_ b).run σ <;> simp [opsNext, Out.bind, after_, ih]; omega
  | io n m a k ih => rw [R.bind, R.ops, R.ops, R.run]; cases (ioMethod n m (a.map .pv)).run σ <;> simp [opsNext, Out.bind, after_, ih]; omega
  | size n k ih => rw [R.bind, R.ops, R.ops, R.run]; cases (lengthOf n).run σ <;> simp [opsNext, Out.bind, after_, ih]; omega

/-- The thread does what `m` does, and touches the memory at most three times for each step, and `c` times more. -/
def Pays (c : Nat) (p : R α) (m : Time.T α) : Prop := ∀ σ, Alike (p.run σ) (m.run σ).2 ∧ p.ops σ ≤ 3 * (m.run σ).1 + c

theorem Pays.up {a c : Nat} {p : R α} {m : Time.T α} (h : Pays a p m) (l : a ≤ c := by decide) : Pays c p m := fun σ => ⟨(h σ).1, by have := (h σ).2; omega⟩

theorem bind_pays_ {a c : Nat} {p : R α} {m : Time.T α} {f : α → R β} {g : α → Time.T β} (hm : Pays a p m) (hf : ∀ x, Pays c (f x) (g x)) : Pays (c + a) (p >>= f) (m >>= g) := by
  intro σ
  rw [run_bind, ops_bind]
  have e : (m >>= g).run σ = (match m.run σ with | (t, .ok a σ') => (t + (g a σ').1, (g a σ').2) | (t, .raise e σ') => (t, .raise e σ')) := rfl
  rw [e]
  have h := hm σ
  revert h
  rcases p.run σ with ⟨x, τ⟩ | ⟨e, τ⟩ <;> rcases m.run σ with ⟨t, ⟨b, υ⟩ | ⟨e', υ⟩⟩ <;> intro ⟨h, l⟩
  · obtain ⟨rfl, rfl⟩ := h
    obtain ⟨h', l'⟩ := hf x τ
    refine ⟨h', ?_⟩
    simp only [after_]
    show _ ≤ 3 * (t + ((g x).run τ).1) + _
    omega
  · exact h.elim
  · exact h.elim
  · refine ⟨h, ?_⟩
    simp only [after_]
    omega

theorem bind_pays {c : Nat} {p : R α} {m : Time.T α} {f : α → R β} {g : α → Time.T β} (hm : Pays 0 p m) (hf : ∀ x, Pays c (f x) (g x)) : Pays c (p >>= f) (m >>= g) :=
  bind_pays_ hm hf

theorem bind_one {c : Nat} {p : R α} {m : Time.T α} {f : α → R β} {g : α → Time.T β} (hm : Pays 1 p m) (hf : ∀ x, Pays c (f x) (g x)) : Pays (c + 1) (p >>= f) (m >>= g) :=
  bind_pays_ hm hf

theorem tick_pays {p : R β} {f : Unit → Time.T β} (h : Pays 3 p (f ())) : Pays 0 p (Time.tick >>= f) := by
  intro σ
  have := h σ
  refine ⟨this.1, ?_⟩
  show _ ≤ 3 * (1 + ((f ()).run σ).1) + 0
  omega

theorem ite_pays {x : Nat} {c : Prop} [Decidable c] {a b : R α} {a' b' : Time.T α} (ha : Pays x a a') (hb : Pays x b b') : Pays x (if c then a else b) (if c then a' else b') := by
  split
  · exact ha
  · exact hb

theorem pays_pure (c : Nat) (a : α) : Pays c (pure a : R α) (pure a) := fun _ => ⟨⟨rfl, rfl⟩, Nat.zero_le _⟩
theorem pays_raise (c : Nat) (e : PyErr) : Pays c (R.raise e : R α) (Time.free (Py.raise e)) := fun _ => ⟨⟨rfl, List.prefix_refl _, rfl⟩, Nat.zero_le _⟩
theorem pays_free {c : Nat} {p : R α} {m : M α} (h : Does p m) (l : ∀ σ, p.ops σ ≤ c) : Pays c p (Time.free m) := fun σ => ⟨h σ, Nat.le_trans (l σ) (Nat.le_add_left _ _)⟩
theorem opsNext_one {γ : Type} (o : Out γ) : opsNext (fun _ _ => 0) o ≤ 1 := by cases o <;> exact Nat.le_refl _
theorem pays_get (r : Nat) : Pays 1 (R.get r) (Time.free (Py.fetch r)) := pays_free (does_get r) fun _ => opsNext_one _
theorem pays_put (r : Nat) (x : String) (v : Val) : Pays 1 (R.put r x v) (Time.free (Py.store r x v)) := pays_free (does_put r x v) fun _ => opsNext_one _
theorem pays_new (c : String) : Pays 1 (R.new c) (Time.free (Py.alloc c)) := pays_free (does_new c) fun _ => opsNext_one _
theorem pays_use (n : Nat) (m : String) (a : List PyVal) : Pays 1 (R.use n m a) (Time.free (ioMethod n m (a.map .pv))) := pays_free (does_use n m a) fun _ => opsNext_one _

theorem ops_still (m : M α) (σ : State) : (still m).ops σ = 0 := by
  unfold still
  split <;> rfl

theorem pays_binOp (c : Nat) (op : BinOp) (x y : Val) : Pays c (still (op.apply x y)) (Time.free (op.apply x y)) :=
  pays_free (still_binOp op x y) fun σ => by rw [ops_still]; exact Nat.zero_le _
theorem pays_cmpOp (c : Nat) (op : CmpOp) (x y : Val) : Pays c (still (op.apply x y)) (Time.free (op.apply x y)) :=
  pays_free (still_cmpOp op x y) fun σ => by rw [ops_still]; exact Nat.zero_le _

theorem ops_get (r : Nat) (σ : State) : (R.get r).ops σ ≤ 1 := opsNext_one _
theorem ops_open (b : Bytes) (σ : State) : (R.open_ b).ops σ ≤ 1 := opsNext_one _
theorem ops_length (n : Nat) (σ : State) : (R.length n).ops σ ≤ 1 := opsNext_one _

theorem ops_one {p : R α} {f : α → R β} (h : ∀ σ, p.ops σ ≤ 1) (k : ∀ a σ, (f a).ops σ = 0) (σ : State) : (p >>= f).ops σ ≤ 1 := by
  rw [ops_bind]
  have := h σ
  cases p.run σ <;> simp [after_, k, this]

theorem pays_builtin (g : String) (args : List Val) : Pays 1 (builtin g args) (Time.free (Py.builtin g args)) := by
  refine pays_free (builtin_same g args) fun σ => ?_
  rw [builtin.eq_def]
  split
  · exact Nat.zero_le _
  · exact Nat.zero_le _
  · exact Nat.zero_le _
  · exact Nat.zero_le _
  · exact Nat.zero_le _
  · exact ops_one (ops_open _) (fun _ _ => rfl) σ
  · exact ops_one (ops_get _) (fun _ _ => rfl) σ
  · exact ops_one (ops_get _) (fun _ _ => rfl) σ
  · exact Nat.zero_le _

theorem pays_loopBound (env : Env) : Pays 2 (loopBound env) (Time.free (Py.loopBound env)) := by
  refine pays_free (loopBound_same env) fun σ => ?_
  unfold loopBound
  generalize List.lookup (α := String) (β := Val) _ _ = w
  match w with
  | some (.obj r) =>
    dsimp only
    rw [ops_bind]
    have h1 : (R.get r).ops σ ≤ 1 := opsNext_one _
    have h2 : ∀ (o : Obj) (τ : State), R.ops (match o.attrs.lookup "_io" with | some (.io k) => do return (← R.length k) + 2 | _ => R.raise .attribute) τ ≤ 1 := by
      intro o τ
      generalize List.lookup (α := String) (β := Val) _ _ = w
      match w with
      | some (.io k) => exact ops_one (ops_length _) (fun _ _ => rfl) τ
      | none | some (.obj _) | some (.pv _) | some (.list _) | some (.file _) => exact Nat.zero_le _
    cases (R.get r).run σ with
    | ok o τ => exact Nat.add_le_add h1 (h2 o τ)
    | raise e τ => exact Nat.add_le_add h1 (Nat.zero_le 1)
  | none | some (.io _) | some (.pv _) | some (.list _) | some (.file _) => exact Nat.zero_le _

/-- Calls. -/
structure CallsPay (c : Calls) (d : Time.Calls) : Prop where
  construct : ∀ n a, Pays 1 (c.construct n a) (d.construct n a)
  method : ∀ r m a, Pays 1 (c.method r m a) (d.method r m a)
  property : ∀ r x, Pays 1 (c.property r x) (d.property r x)

theorem getattr_pays {c : Calls} {d : Time.Calls} (hc : CallsPay c d) (v : Val) (x : String) : Pays 3 (getattr c v x) (Time.getattr d v x) := by
  refine Pays.up (a := 2) ?_
  rw [getattr.eq_def, Time.getattr.eq_def]
  split
  · refine bind_one (pays_get _) fun a => ?_
    cases a.attrs.lookup x
    · exact hc.property _ _
    · exact pays_pure _ _
  · exact pays_pure _ _
  · split
    · simp_all
    · simp_all
    · exact pays_raise _ _

theorem invoke_pays {c : Calls} {d : Time.Calls} (hc : CallsPay c d) (v : Val) (m : String) (args : List Val) : Pays 3 (invoke c v m args) (Time.invoke d v m args) := by
  refine Pays.up (a := 1) ?_
  rw [invoke.eq_def]
  split
  · exact hc.method _ _ _
  · exact pays_use _ _ []
  · exact pays_use _ _ [_]
  · rename_i b e
    rw [Time.invoke]
    cases codec (String.ofList e) with
    | none => exact pays_raise _ _
    | some f => dsimp only; cases f b <;> first | exact pays_pure _ _ | exact pays_raise _ _
  · rw [Time.invoke.eq_def]
    split
    · simp_all
    · rename_i k m args hno h0 h1 _
      rw [io_other]
      · exact pays_raise _ _
      · rintro rfl; exact h0 _ rfl rfl
      · rintro a rfl; exact h1 _ _ rfl rfl
    · simp_all
    · exact pays_raise _ _

macro "pay" : tactic => `(tactic| first | exact pays_pure _ _ | exact pays_raise _ _ | exact tick_pays (pays_pure _ _) | exact tick_pays (pays_raise _ _) | exact pays_get _ | exact pays_put _ _ _ | exact pays_binOp _ _ _ _ | exact pays_cmpOp _ _ _ _)

mutual
theorem eval_pays (P : Program) {c : Calls} {d : Time.Calls} (hc : CallsPay c d) (env : Env) (e : Expr) : Pays 0 (eval P c env e) (Time.eval P d env e) := by
  match e with
  | .none | .bool _ | .int _ | .str _ | .bytes _ | .emptyList => rw [eval, Time.eval]; pay
  | .name x => rw [eval, Time.eval]; refine tick_pays ?_; cases env.lookup x <;> pay
  | .global _ | .cls _ | .enum _ => rw [eval, Time.eval]; pay
  | .attr e x =>
    have ih := eval_pays P hc env e
    rw [eval.eq_def, Time.eval.eq_def]
    split
    all_goals first | (rename_i heq; cases heq; done) | (rename_i heq _; cases heq; done) | skip
    all_goals rename_i heq
    all_goals cases heq
    · refine tick_pays ?_
      rename_i e
      cases P.enums.find? (fun d => d.qualified == e) with
      | none => pay
      | some d => dsimp only; cases d.members.lookup x <;> pay
    · rename_i h
      split
      all_goals first | (rename_i heq; cases heq; done) | (rename_i heq _; cases heq; done) | skip
      all_goals rename_i heq
      all_goals cases heq
      · exact absurd rfl (h _)
      · exact tick_pays (bind_pays ih fun v => getattr_pays hc v x)
  | .call f args =>
    have hargs := evals_pays P hc env args
    have hf : ∀ e m, f = .attr e m → Pays 0 (eval P c env e) (Time.eval P d env e) := by
      match f with
      | .attr e m => have := eval_pays P hc env e; intro e' m' h; cases h; exact this
      | .none | .bool _ | .int _ | .str _ | .bytes _ | .emptyList | .name _ | .global _ | .cls _ | .enum _ | .call _ _ | .bin _ _ _ | .cmp _ _ _
      | .not _ | .and _ _ | .or _ _ | .ifExp _ _ _ => intro e' m' h; cases h
    have hx : ∀ a x, args = [a, x] → Pays 0 (eval P c env x) (Time.eval P d env x) := by
      match args with
      | [a, x] => have := eval_pays P hc env x; intro a' x' h; cases h; exact this
      | [] | [_] | _ :: _ :: _ :: _ => intro a' x' h; cases h
    rw [eval.eq_def, Time.eval.eq_def]
    split
    all_goals first | (rename_i heq; cases heq; done) | (rename_i heq _; cases heq; done) | skip
    all_goals rename_i heq
    all_goals cases heq
    · exact tick_pays (bind_pays hargs fun _ => (hc.construct _ _).up)
    · exact tick_pays (bind_pays hargs fun _ => (pays_builtin _ _).up)
    · refine tick_pays (bind_pays (hx _ _ rfl) fun v => ?_)
      generalize List.find? _ _ = o
      cases o with
      | none => pay
      | some d =>
        match v with
        | .pv (.int (.ofNat v)) => pay
        | .pv (.int (.negSucc v)) => pay
        | .pv .none | .pv (.bool _) | .pv (.str _) | .pv (.bytes _) | .pv (.enum _ _) | .pv (.list _) | .pv (.dict _) | .pv (.struct _ _) | .pv .stream | .pv .backref
        | .obj _ | .io _ | .file _ | .list _ => pay
    · rename_i h1 h2
      split
      all_goals first | (rename_i heq; cases heq; done) | (rename_i heq _; cases heq; done) | skip
      all_goals rename_i heq
      all_goals cases heq
      · exact (h2 _ _ rfl rfl rfl).elim
      · exact tick_pays (bind_pays (hf _ _ rfl) fun v => bind_pays hargs fun _ => invoke_pays hc v _ _)
      · rename_i h3 _; exact (h3 _ _ rfl).elim
    · split
      all_goals first | (rename_i heq; cases heq; done) | (rename_i heq _; cases heq; done) | skip
      all_goals rename_i heq
      all_goals cases heq
      all_goals first | pay | skip
      · rename_i h _ _ _; exact (h _ rfl).elim
      · rename_i h _ _; exact (h _ rfl).elim
      · rename_i h _; exact (h _ _ rfl).elim
      · rename_i h _ _; exact (h _ _ rfl).elim
  | .bin op a b =>
    rw [eval, Time.eval]
    exact tick_pays (bind_pays (eval_pays P hc env a) fun x => bind_pays (eval_pays P hc env b) fun y => by pay)
  | .cmp op a b =>
    rw [eval, Time.eval]
    exact tick_pays (bind_pays (eval_pays P hc env a) fun x => bind_pays (eval_pays P hc env b) fun y => by pay)
  | .not a => rw [eval, Time.eval]; exact tick_pays (bind_pays (eval_pays P hc env a) fun x => by pay)
  | .and a b =>
    rw [eval, Time.eval]
    exact tick_pays (bind_pays (eval_pays P hc env a) fun x => ite_pays (eval_pays P hc env b).up (by pay))
  | .or a b =>
    rw [eval, Time.eval]
    exact tick_pays (bind_pays (eval_pays P hc env a) fun x => ite_pays (by pay) (eval_pays P hc env b).up)
  | .ifExp t a b =>
    rw [eval, Time.eval]
    exact tick_pays (bind_pays (eval_pays P hc env t) fun x => ite_pays (eval_pays P hc env a).up (eval_pays P hc env b).up)
theorem evals_pays (P : Program) {c : Calls} {d : Time.Calls} (hc : CallsPay c d) (env : Env) (l : List Expr) : Pays 0 (evals P c env l) (Time.evals P d env l) := by
  match l with
  | [] => rw [evals, Time.evals]; pay
  | e :: rest =>
    rw [evals, Time.evals]
    exact bind_pays (eval_pays P hc env e) fun _ => bind_pays (evals_pays P hc env rest) fun _ => by pay
end

theorem forLoop_pays {body : Env → R Flow} {body' : Env → Time.T Flow} (h : ∀ env, Pays 0 (body env) (body' env)) (x : String) :
    ∀ (l : List Val) (env : Env), Pays 0 (forLoop body x l env) (Time.forLoop body' x l env)
  | [], env => by rw [forLoop, Time.forLoop]; pay
  | v :: rest, env => by
    rw [forLoop, Time.forLoop]
    refine bind_pays (h _) fun f => ?_
    cases f with
    | next env => exact forLoop_pays h x rest env
    | brk env => pay
    | ret v => pay

theorem whileLoop_pays {c : Env → R Bool} {c' : Env → Time.T Bool} {body : Env → R Flow} {body' : Env → Time.T Flow} (hc : ∀ env, Pays 0 (c env) (c' env))
    (h : ∀ env, Pays 0 (body env) (body' env)) : ∀ (n : Nat) (env : Env), Pays 0 (whileLoop c body n env) (Time.whileLoop c' body' n env)
  | 0, env => by
    rw [whileLoop, Time.whileLoop]
    exact bind_pays (hc _) fun t => ite_pays (by pay) (by pay)
  | n + 1, env => by
    rw [whileLoop, Time.whileLoop]
    refine bind_pays (hc _) fun t => ite_pays ?_ (by pay)
    refine bind_pays (h _) fun f => ?_
    cases f with
    | next env => exact whileLoop_pays hc h n env
    | brk env => pay
    | ret v => pay

mutual
theorem exec_pays (P : Program) {c : Calls} {d : Time.Calls} (hc : CallsPay c d) (st : Stmt) (env : Env) : Pays 0 (exec P c st env) (Time.exec P d st env) := by
  have he := eval_pays P hc
  match st with
  | .assign x e => rw [exec, Time.exec]; exact tick_pays (bind_pays (he _ _) fun _ => by pay)
  | .setattr o x e =>
    rw [exec, Time.exec]
    refine tick_pays (bind_pays (he _ _) fun v => bind_pays (he _ _) fun w => ?_)
    cases w <;> first | pay | exact bind_one (by pay) fun _ => by pay
  | .expr e =>
    rw [exec.eq_def, Time.exec.eq_def]
    split
    all_goals first | (rename_i heq; cases heq; done) | (rename_i heq _; cases heq; done) | skip
    · rename_i heq
      cases heq
      refine tick_pays (bind_pays (he _ _) fun v => ?_)
      cases v with
      | obj r =>
        refine bind_one (by pay) fun o => ?_
        generalize List.lookup (α := String) (β := Val) _ _ = w
        cases w with
        | none => pay
        | some w =>
          cases w <;> first | pay | skip
          refine bind_pays (he _ _) fun v => bind_one (by pay) fun o => ?_
          generalize List.lookup (α := String) (β := Val) _ _ = w
          cases w with
          | none => pay
          | some w => cases w <;> first | pay | exact bind_one (by pay) fun _ => by pay
      | pv _ | io _ | file _ | list _ => pay
    · rename_i hno heq
      cases heq
      split
      all_goals first | (rename_i heq; cases heq; done) | (rename_i heq _; cases heq; done) | skip
      all_goals rename_i heq
      all_goals cases heq
      · exact absurd rfl (hno _ _ _)
      · exact tick_pays (bind_pays (he _ _) fun _ => by pay)
  | .if_ t a b =>
    rw [exec, Time.exec]
    exact tick_pays (bind_pays (he _ _) fun _ => ite_pays (execs_pays P hc a env).up (execs_pays P hc b env).up)
  | .for_ x it body =>
    have hb := execs_pays P hc body
    rw [exec, Time.exec]
    refine tick_pays (bind_pays (he _ _) fun v => ?_)
    cases v <;> first | pay | exact (forLoop_pays hb _ _ _).up
  | .while_ t body =>
    have hb := execs_pays P hc body
    rw [exec, Time.exec]
    exact tick_pays (bind_pays_ (c := 1) (pays_loopBound env) fun n => (whileLoop_pays (fun env => bind_pays (he _ _) fun _ => by pay) hb _ _).up)
  | .break_ => rw [exec, Time.exec]; pay
  | .pass_ => rw [exec, Time.exec]; pay
  | .raise_ e =>
    rw [exec.eq_def, Time.exec.eq_def]
    split
    all_goals first | (rename_i heq; cases heq; done) | (rename_i heq _; cases heq; done) | skip
    · rename_i heq
      cases heq
      exact tick_pays (bind_pays (he _ _) fun _ => bind_pays (he _ _) fun _ => bind_pays (he _ _) fun _ => by pay)
    · rename_i hno heq
      cases heq
      split
      all_goals first | (rename_i heq; cases heq; done) | (rename_i heq _; cases heq; done) | skip
      all_goals rename_i heq
      all_goals cases heq
      · exact absurd rfl (hno _ _ _ _)
      · pay
  | .return_ e => rw [exec, Time.exec]; exact tick_pays (bind_pays (he _ _) fun _ => by pay)
theorem execs_pays (P : Program) {c : Calls} {d : Time.Calls} (hc : CallsPay c d) (l : List Stmt) (env : Env) : Pays 0 (execs P c l env) (Time.execs P d l env) := by
  match l with
  | [] => rw [execs, Time.execs]; pay
  | st :: rest =>
    have h2 := execs_pays P hc rest
    rw [execs, Time.execs]
    refine bind_pays (exec_pays P hc st env) fun f => ?_
    cases f with
    | next env => exact h2 env
    | brk env => pay
    | ret v => pay
end

theorem call_pays (P : Program) {c : Calls} {d : Time.Calls} (hc : CallsPay c d) (f : Function) (args : List Val) : Pays 0 (call P c f args) (Time.call P d f args) := by
  unfold call Time.call
  refine bind_pays (execs_pays P hc _ _) fun f => ?_
  cases f <;> pay

theorem pays_discard {c : Nat} {p : R α} {m : Time.T α} (h : Pays c p m) : Pays c p (Time.discard m) := by
  intro σ
  have h := h σ
  have e : (Time.discard m).run σ = (match m.run σ with | (t, .ok a σ') => (t, .ok a σ') | (t, .raise e σ') => (t, .raise e ⟨σ'.heap.take σ.heap.length, σ'.streams⟩)) := rfl
  rw [e]
  revert h
  rcases p.run σ with ⟨a, τ⟩ | ⟨e, τ⟩ <;> rcases m.run σ with ⟨t, ⟨b, υ⟩ | ⟨e', υ⟩⟩
  · exact id
  · exact id
  · exact id
  · rintro ⟨⟨h1, h2, h3⟩, h⟩
    exact ⟨⟨h1, (List.take_prefix _ _).trans h2, h3⟩, h⟩

theorem calls_pay (P : Program) : ∀ n, CallsPay (calls P n) (Time.calls P n)
  | 0 => ⟨fun _ _ => pays_raise _ _, fun _ _ _ => pays_raise _ _, fun _ _ => pays_raise _ _⟩
  | n + 1 => by
    have ih := calls_pay P n
    rw [calls, Time.calls]
    refine ⟨fun cls args => pays_discard ?_, fun r m args => ?_, fun r x => ?_⟩
    · dsimp only
      cases P.method cls "__init__" with
      | none => pay
      | some f => exact bind_one (pays_new _) fun r => bind_pays (call_pays P ih f _) fun _ => by pay
    · refine bind_one (pays_get _) fun o => ?_
      cases P.method o.cls m with
      | none => pay
      | some f => exact call_pays P ih f _
    · refine bind_one (pays_get _) fun o => ?_
      cases P.property o.cls x with
      | none => pay
      | some f => exact call_pays P ih f _

end Dmr.Py.Threads
