import Verif.Py.TimeLibrary
/-
Pieces of programs without loops, which take a bounded number of steps even if they seek, or open a stream.
-/

set_option autoImplicit false

namespace Dmr.Py.Time

variable {α β : Type}

/-- At most so many steps, wherever it starts. -/
def Flat (t : Nat) (m : T α) : Prop := ∀ σ, (m.run σ).1 ≤ t

theorem Flat.more {t u : Nat} {m : T α} (h : Flat t m) (htu : t ≤ u) : Flat u m := fun σ => Nat.le_trans (h σ) htu

theorem flat_bind {t u : Nat} {m : T α} {f : α → T β} (hm : Flat t m) (hf : ∀ a, Flat u (f a)) : Flat (t + u) (m >>= f) := by
  intro σ
  have h := hm σ
  rw [run_bind]
  rcases hr : m.run σ with ⟨w, ⟨a, τ⟩ | ⟨e, τ⟩⟩
  · rw [hr] at h
    have := hf a τ
    dsimp only at h ⊢
    omega
  · rw [hr] at h
    dsimp only at h ⊢
    omega

theorem flat_tick {t : Nat} {f : Unit → T β} (h : Flat t (f ())) : Flat (1 + t) (tick >>= f) := flat_bind (m := tick) (fun _ => Nat.le_refl _) fun _ => h
theorem flat_pure (t : Nat) (a : α) : Flat t (pure a : T α) := fun _ => Nat.zero_le _
theorem flat_free (t : Nat) (m : M α) : Flat t (free m) := fun _ => Nat.zero_le _
theorem flat_ite {t u : Nat} {p : Prop} [Decidable p] {m m' : T α} (h : Flat t m) (h' : Flat u m') : Flat (max t u) (if p then m else m') := by
  split
  · exact h.more (Nat.le_max_left _ _)
  · exact h'.more (Nat.le_max_right _ _)

theorem flat_of_within {d : Cost} (hb : d.b = 0) {m : T α} (h : Within d m) : Flat d.a m := by
  intro σ
  have h := h σ
  obtain ⟨a, b, k⟩ := d
  dsimp only at hb
  subst hb
  rcases hr : m.run σ with ⟨w, ⟨x, τ⟩ | ⟨e, τ⟩⟩
  · rw [hr] at h
    have := (at_ok h).2
    dsimp only at this ⊢
    omega
  · rw [hr] at h
    have := at_raise h
    dsimp only at this ⊢
    omega

/-- If it does not depend on the number of bytes. -/
def fixed : Option Cost → Option Nat
  | some d => if d.b = 0 then some d.a else none
  | none => none

theorem fixed_some {x : Option Cost} {n : Nat} (h : fixed x = some n) : ∃ d, x = some d ∧ d.b = 0 ∧ d.a = n := by
  unfold fixed at h
  split at h
  · split at h
    · cases h; exact ⟨_, rfl, by assumption, rfl⟩
    · cases h
  · cases h

/-- The sum. -/
def plus : Option Nat → Option Nat → Option Nat
  | some m, some n => some (m + n)
  | _, _ => none
/-- The greater one. -/
def most : Option Nat → Option Nat → Option Nat
  | some m, some n => some (max m n)
  | _, _ => none

theorem plus_some {x y : Option Nat} {n : Nat} (h : plus x y = some n) : ∃ a b, x = some a ∧ y = some b ∧ n = a + b := by
  cases x <;> cases y <;> cases h
  exact ⟨_, _, rfl, rfl, rfl⟩
theorem most_some {x y : Option Nat} {n : Nat} (h : most x y = some n) : ∃ a b, x = some a ∧ y = some b ∧ n = max a b := by
  cases x <;> cases y <;> cases h
  exact ⟨_, _, rfl, rfl, rfl⟩

mutual
/-- The steps of an expression. -/
def fcost (K : Known) : Expr → Option Nat
  | .none | .bool _ | .int _ | .str _ | .bytes _ | .emptyList | .name _ | .global _ | .cls _ | .enum _ => some 1
  | .attr (.enum _) _ => some 1
  | .attr e x => plus (some 1) (plus (fcost K e) (fixed (K.prop x)))
  | .call (.cls n) args => plus (some 1) (plus (fcosts K args) (fixed ((K.read n).map build)))
  | .call (.global _) args => plus (some 1) (fcosts K args)
  | .call (.attr e m) args => if m ∈ ownMethods then none else plus (some 1) (plus (fcost K e) (fcosts K args))
  | .call _ _ => some 1
  | .bin _ a b | .cmp _ a b | .and a b | .or a b => plus (some 1) (plus (fcost K a) (fcost K b))
  | .not e => plus (some 1) (fcost K e)
  | .ifExp t a b => plus (some 1) (plus (fcost K t) (most (fcost K a) (fcost K b)))
/-- The steps of arguments. -/
def fcosts (K : Known) : List Expr → Option Nat
  | [] => some 0
  | e :: l => plus (fcost K e) (fcosts K l)
end

theorem flat_getattr {K : Known} {c : Calls} (hc : Bounds K c) (v : Val) (x : String) {n : Nat} (h : fixed (K.prop x) = some n) : Flat n (getattr c v x) := by
  obtain ⟨d, hd, hb, rfl⟩ := fixed_some h
  unfold getattr
  split
  · refine (flat_bind (flat_free 0 _) (u := d.a) fun o => ?_).more (by omega)
    split
    · exact flat_pure _ _
    · exact flat_of_within hb (hc.property _ _ _ hd)
  · exact flat_pure _ _
  · exact flat_free _ _

theorem flat_invoke {K : Known} {c : Calls} (hc : Bounds K c) (v : Val) (m : String) (hm : m ∉ ownMethods) (args : List Val) : Flat 0 (invoke c v m args) := by
  unfold invoke
  split
  · intro σ
    obtain ⟨e, τ, h⟩ := hc.method _ m args σ hm
    rw [h]
    exact Nat.zero_le _
  · exact flat_free _ _
  · split
    · split
      · exact flat_pure _ _
      · exact flat_free _ _
    · exact flat_free _ _
  · exact flat_free _ _

mutual
theorem flat_eval (P : Program) {K : Known} {c : Calls} (hc : Bounds K c) (env : Env) (e : Expr) (n : Nat) (h : fcost K e = some n) : Flat n (eval P c env e) := by
  match e with
  | .none | .bool _ | .int _ | .str _ | .bytes _ | .emptyList => cases h; rw [eval]; exact flat_tick (t := 0) (flat_pure _ _)
  | .name x =>
    cases h
    rw [eval]
    refine flat_tick (t := 0) ?_
    split
    · exact flat_pure _ _
    · exact flat_free _ _
  | .global _ | .cls _ | .enum _ => cases h; rw [eval]; exact flat_tick (t := 0) (flat_free _ _)
  | .attr e x =>
    have ih := flat_eval P hc env e
    rw [eval.eq_def]
    split
    all_goals first | (rename_i heq; cases heq; done) | (rename_i heq _; cases heq; done) | skip
    all_goals rename_i heq
    all_goals cases heq
    · rw [fcost] at h
      cases h
      refine flat_tick (t := 0) ?_
      split
      · split
        · exact flat_pure _ _
        · exact flat_free _ _
      · exact flat_free _ _
    · rename_i hno
      rw [fcost] at h
      rotate_left
      · exact hno
      obtain ⟨_, n1, h0, h1, rfl⟩ := plus_some h
      cases h0
      obtain ⟨n2, n3, h2, h3, rfl⟩ := plus_some h1
      exact flat_tick (flat_bind (ih _ h2) fun v => flat_getattr hc v x h3)
  | .call f args =>
    have hs := flat_evals P hc env args
    have hf : ∀ e m, f = .attr e m → ∀ d, fcost K e = some d → Flat d (eval P c env e) := by
      match f with
      | .attr e m =>
        have := flat_eval P hc env e
        intro e' m' h
        cases h
        exact this
      | .none | .bool _ | .int _ | .str _ | .bytes _ | .emptyList | .name _ | .global _ | .cls _ | .enum _ | .call _ _ | .bin _ _ _ | .cmp _ _ _
      | .not _ | .and _ _ | .or _ _ | .ifExp _ _ _ => intro e' m' h; cases h
    rw [eval.eq_def]
    split
    all_goals first | (rename_i heq; cases heq; done) | (rename_i heq _; cases heq; done) | skip
    all_goals rename_i heq
    all_goals cases heq
    · rw [fcost] at h
      obtain ⟨_, n1, h0, h1, rfl⟩ := plus_some h
      cases h0
      obtain ⟨n2, n3, h2, h3, rfl⟩ := plus_some h1
      obtain ⟨d, hd, hb, rfl⟩ := fixed_some h3
      obtain ⟨d', hd', rfl⟩ := Option.map_eq_some_iff.1 hd
      exact flat_tick (flat_bind (hs _ h2) fun v => flat_of_within hb (hc.construct _ v _ hd'))
    · rw [fcost] at h
      obtain ⟨_, n1, h0, h1, rfl⟩ := plus_some h
      cases h0
      exact flat_tick ((flat_bind (u := 0) (hs _ h1) fun v => flat_free _ _).more (by omega))
    · rename_i e x
      rw [fcost, if_neg (by decide)] at h
      obtain ⟨_, n1, h0, h1, rfl⟩ := plus_some h
      cases h0
      obtain ⟨n2, n3, h2, h3, rfl⟩ := plus_some h1
      rw [fcosts, fcosts, fcosts] at h3
      obtain ⟨n4, n5, h4, h5, rfl⟩ := plus_some h3
      obtain ⟨n6, n7, h6, h7, rfl⟩ := plus_some h5
      have := flat_eval P hc env x n6 h6
      refine flat_tick ((flat_bind this (u := 0) fun v => ?_).more (by omega))
      split
      · exact flat_pure _ _
      · exact flat_free _ _
    · rw [fcost] at h
      split at h
      · cases h
      · rename_i hm
        obtain ⟨_, n1, h0, h1, rfl⟩ := plus_some h
        cases h0
        obtain ⟨n2, n3, h2, h3, rfl⟩ := plus_some h1
        exact flat_tick (flat_bind (hf _ _ rfl _ h2) fun v => flat_bind (u := 0) (hs _ h3) fun w => flat_invoke hc _ _ hm _)
    · have : 1 ≤ n := by
        unfold fcost at h
        split at h
        all_goals first | (rename_i heq; cases heq; done) | (rename_i heq _; cases heq; done) | skip
        all_goals simp_all
      exact (flat_tick (t := 0) (flat_free _ _)).more this
  | .bin op a b | .cmp op a b =>
    rw [fcost] at h
    obtain ⟨_, n1, h0, h1, rfl⟩ := plus_some h
    cases h0
    obtain ⟨n2, n3, h2, h3, rfl⟩ := plus_some h1
    have ha := flat_eval P hc env a _ h2
    have hb := flat_eval P hc env b _ h3
    rw [eval]
    exact flat_tick (flat_bind ha fun x => flat_bind (u := 0) hb fun y => flat_free _ _)
  | .not a =>
    rw [fcost] at h
    obtain ⟨_, n1, h0, h1, rfl⟩ := plus_some h
    cases h0
    rw [eval]
    exact flat_tick (flat_bind (u := 0) (flat_eval P hc env a _ h1) fun _ => flat_pure _ _)
  | .and a b | .or a b =>
    rw [fcost] at h
    obtain ⟨_, n1, h0, h1, rfl⟩ := plus_some h
    cases h0
    obtain ⟨n2, n3, h2, h3, rfl⟩ := plus_some h1
    have ha := flat_eval P hc env a _ h2
    have hb := flat_eval P hc env b _ h3
    rw [eval]
    refine flat_tick (flat_bind ha fun x => ?_)
    split
    · first | exact hb | exact flat_pure _ _
    · first | exact hb | exact flat_pure _ _
  | .ifExp t a b =>
    rw [fcost] at h
    obtain ⟨_, n1, h0, h1, rfl⟩ := plus_some h
    cases h0
    obtain ⟨n2, n3, h2, h3, rfl⟩ := plus_some h1
    obtain ⟨n4, n5, h4, h5, rfl⟩ := most_some h3
    rw [eval]
    exact flat_tick (flat_bind (flat_eval P hc env t _ h2) fun x => flat_ite (flat_eval P hc env a _ h4) (flat_eval P hc env b _ h5))
theorem flat_evals (P : Program) {K : Known} {c : Calls} (hc : Bounds K c) (env : Env) (l : List Expr) (n : Nat) (h : fcosts K l = some n) : Flat n (evals P c env l) := by
  match l with
  | [] => cases h; rw [evals]; exact flat_pure _ _
  | e :: rest =>
    rw [fcosts] at h
    obtain ⟨n2, n3, h2, h3, rfl⟩ := plus_some h
    rw [evals]
    exact flat_bind (flat_eval P hc env e _ h2) fun v => flat_bind (u := 0) (flat_evals P hc env rest _ h3) fun _ => flat_pure _ _
end

mutual
/-- The steps of a statement. -/
def gcost (K : Known) : Stmt → Option Nat
  | .assign _ e => plus (some 1) (fcost K e)
  | .setattr o _ e => plus (some 1) (plus (fcost K e) (fcost K o))
  | .expr (.call (.attr (.name x) m) args) => if m ∈ ownMethods then none else plus (some 1) (fcost K (.call (.attr (.name x) m) args))
  | .expr _ => none
  | .if_ t a b => plus (some 1) (plus (fcost K t) (most (gcosts K a) (gcosts K b)))
  | .return_ e => plus (some 1) (fcost K e)
  | .pass_ => some 1
  | _ => none
/-- The steps of statements. -/
def gcosts (K : Known) : List Stmt → Option Nat
  | [] => some 0
  | st :: l => plus (gcost K st) (gcosts K l)
end

mutual
theorem flat_exec (P : Program) {K : Known} {c : Calls} (hc : Bounds K c) (st : Stmt) (n : Nat) (h : gcost K st = some n) (env : Env) : Flat n (exec P c st env) := by
  have he := fun (env : Env) (e : Expr) (d : Nat) => flat_eval P hc env e d
  match st with
  | .assign x e =>
    rw [gcost] at h
    obtain ⟨_, n1, h0, h1, rfl⟩ := plus_some h
    cases h0
    rw [exec]
    exact flat_tick (flat_bind (u := 0) (he _ _ _ h1) fun _ => flat_pure _ _)
  | .setattr o x e =>
    rw [gcost] at h
    obtain ⟨_, n1, h0, h1, rfl⟩ := plus_some h
    cases h0
    obtain ⟨n2, n3, h2, h3, rfl⟩ := plus_some h1
    rw [exec]
    refine flat_tick (flat_bind (he _ _ _ h2) fun v => ?_)
    refine flat_bind (u := 0) (he _ _ _ h3) fun w => ?_
    split
    · exact flat_bind (t := 0) (u := 0) (flat_free _ _) fun _ => flat_pure _ _
    · exact flat_free _ _
  | .expr e =>
    unfold gcost at h
    split at h
    all_goals first | (rename_i heq; cases heq; done) | (cases h; done) | skip
    rename_i heq
    cases heq
    split at h
    · cases h
    · obtain ⟨_, n1, h0, h1, rfl⟩ := plus_some h
      cases h0
      rw [exec]
      · exact flat_tick (flat_bind (u := 0) (he _ _ _ h1) fun _ => flat_pure _ _)
      · intro o x e h; cases h
  | .if_ t a b =>
    rw [gcost] at h
    obtain ⟨_, n1, h0, h1, rfl⟩ := plus_some h
    cases h0
    obtain ⟨n2, n3, h2, h3, rfl⟩ := plus_some h1
    obtain ⟨n4, n5, h4, h5, rfl⟩ := most_some h3
    have ha := flat_execs P hc a _ h4 env
    have hb := flat_execs P hc b _ h5 env
    rw [exec]
    exact flat_tick (flat_bind (he _ _ _ h2) fun v => flat_ite ha hb)
  | .return_ e =>
    rw [gcost] at h
    obtain ⟨_, n1, h0, h1, rfl⟩ := plus_some h
    cases h0
    rw [exec]
    exact flat_tick (flat_bind (u := 0) (he _ _ _ h1) fun _ => flat_pure _ _)
  | .pass_ => cases h; rw [exec]; exact flat_tick (t := 0) (flat_pure _ _)
  | .for_ _ _ _ | .while_ _ _ | .break_ | .raise_ _ => unfold gcost at h; cases h
theorem flat_execs (P : Program) {K : Known} {c : Calls} (hc : Bounds K c) (l : List Stmt) (n : Nat) (h : gcosts K l = some n) (env : Env) : Flat n (execs P c l env) := by
  match l with
  | [] => rw [execs]; exact flat_pure _ _
  | st :: rest =>
    rw [gcosts] at h
    obtain ⟨n2, n3, h2, h3, rfl⟩ := plus_some h
    have h1 := flat_exec P hc st _ h2 env
    have h2 := flat_execs P hc rest _ h3
    rw [execs]
    refine flat_bind h1 fun f => ?_
    cases f with
    | next env' => exact h2 env'
    | brk env' => exact flat_pure _ _
    | ret v => exact flat_pure _ _
end

theorem flat_call (P : Program) {K : Known} {c : Calls} (hc : Bounds K c) {f : Function} {n : Nat} (h : gcosts K f.body = some n) (args : List Val) :
    Flat n (call P c f args) := by
  unfold call
  refine (flat_bind (u := 0) (flat_execs P hc f.body n h _) fun f => ?_).more (by omega)
  split <;> exact flat_pure _ _

/-- Every property, whatever its name, takes at most so many steps. -/
def propertyTime : Nat := 203

theorem library_flat : ∀ d ∈ library.classes, ∀ p ∈ d.properties, (known.prop p.1).isNone = true → (gcosts known p.2.body).any (· ≤ propertyTime) = true := by
  have : library.classes.all (fun d => d.properties.all fun p => !(known.prop p.1).isNone || (gcosts known p.2.body).any (· ≤ propertyTime)) = true := by decide +kernel
  intro d hd p hp h
  have := List.all_eq_true.1 (List.all_eq_true.1 this d hd) p hp
  rw [h] at this
  simpa using this

theorem known_flat : ∀ x d, known.prop x = some d → d.b = 0 ∧ d.a ≤ propertyTime := by
  have h : propertyCosts.all (fun p => match p.2 with | some d => d.b == 0 && decide (d.a ≤ propertyTime) | none => true) = true := by decide +kernel
  intro x d hd
  change (match propertyCosts.lookup x with | some c => c | none => some nothing) = some d at hd
  split at hd
  · rename_i c hc
    subst hd
    have := List.all_eq_true.1 h _ (lookup_mem hc)
    simpa using this
  · cases hd
    exact ⟨rfl, Nat.zero_le _⟩

theorem flat_property (n r : Nat) (x : String) : Flat propertyTime ((calls library n).property r x) := by
  cases hx : known.prop x with
  | some d =>
    obtain ⟨h1, h2⟩ := known_flat x d hx
    exact (flat_of_within h1 ((library_bounds n).1.property r x d hx)).more h2
  | none =>
    cases n with
    | zero => exact flat_free _ _
    | succ n =>
      refine (flat_bind (t := 0) (u := propertyTime) (m := free (fetch r)) (f := fun o => match library.property o.cls x with
        | some f => call library (calls library n) f [.obj r]
        | none => free (raise .attribute)) (flat_free _ _) fun o => ?_).more (by omega)
      split
      · rename_i f hf
        obtain ⟨d, hd, _, hmem⟩ := property_mem hf
        have := library_flat d hd _ hmem (by rw [hx]; rfl)
        rw [Option.any_eq_true] at this
        obtain ⟨m, hm, hle⟩ := this
        exact (flat_call library (library_bounds n).1 hm _).more (by simpa using hle)
      · exact flat_free _ _

end Dmr.Py.Time
