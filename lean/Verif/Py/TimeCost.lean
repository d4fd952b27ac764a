import Verif.Py.TimeBound
import Verif.Py.Grow
/-
The bound of Verif/Py/TimeBound for expressions, statements and functions, from their text.
-/

set_option autoImplicit false

namespace Dmr.Py.Time

variable {α β : Type}

/-- What is known of the methods `_read` of the classes, and of the properties of each name. -/
structure Known where
  read : String → Option Cost
  prop : String → Option Cost

/-- A constructor, whose `_read` takes that. -/
def build (c : Cost) : Cost := ⟨c.a + 20, c.b, c.k⟩

/-- So much for the calls. -/
structure Bounds (K : Known) (c : Calls) : Prop where
  construct : ∀ n args d, K.read n = some d → Within (build d) (c.construct n args)
  method : ∀ r m args σ, m ∉ ownMethods → ∃ e τ, (c.method r m args).run σ = (0, .raise e τ)
  property : ∀ r x d, K.prop x = some d → Within d (c.property r x)
  io : ∀ r σ, ∃ e τ, (c.property r "_io").run σ = (0, .raise e τ)

/-- Both, if both are known. -/
def sq : Option Cost → Option Cost → Option Cost
  | some c, some d => some (c.seq d)
  | _, _ => none

/-- The greater one. -/
def al : Option Cost → Option Cost → Option Cost
  | some c, some d => some (c.alt d)
  | _, _ => none

/-- And a step before. -/
def tk : Option Cost → Option Cost
  | some c => some (step.seq c)
  | none => none

/-- Perhaps. -/
def opt : Option Cost → Option Cost
  | some c => some (c.alt nothing)
  | none => none

theorem sq_some {x y : Option Cost} {e : Cost} (h : sq x y = some e) : ∃ c d, x = some c ∧ y = some d ∧ e = c.seq d := by
  cases x <;> cases y <;> cases h
  exact ⟨_, _, rfl, rfl, rfl⟩
theorem al_some {x y : Option Cost} {e : Cost} (h : al x y = some e) : ∃ c d, x = some c ∧ y = some d ∧ e = c.alt d := by
  cases x <;> cases y <;> cases h
  exact ⟨_, _, rfl, rfl, rfl⟩
theorem tk_some {x : Option Cost} {e : Cost} (h : tk x = some e) : ∃ c, x = some c ∧ e = step.seq c := by
  cases x <;> cases h
  exact ⟨_, rfl, rfl⟩
theorem opt_some {x : Option Cost} {e : Cost} (h : opt x = some e) : ∃ c, x = some c ∧ e = c.alt nothing := by
  cases x <;> cases h
  exact ⟨_, rfl, rfl⟩

mutual
/-- What an expression takes. -/
def ecost (K : Known) : Expr → Option Cost
  | .none | .bool _ | .int _ | .str _ | .bytes _ | .emptyList | .name _ | .global _ | .cls _ | .enum _ => some step
  | .attr (.enum _) _ => some step
  | .attr e x => tk (sq (ecost K e) (opt (K.prop x)))
  | .call (.cls n) args => tk (sq (ecosts K args) ((K.read n).map build))
  | .call (.global g) args => if g = "KaitaiStream" then none else tk (ecosts K args)
  | .call (.attr e m) args =>
    if m ∈ ownMethods ∨ m = "seek" then none
    else tk (sq (ecost K e) (sq (ecosts K args) (some ⟨0, 0, if m ∈ eaters then 1 else 0⟩)))
  | .call _ _ => some step
  | .bin _ a b | .cmp _ a b => tk (sq (ecost K a) (ecost K b))
  | .not e => tk (ecost K e)
  | .and a b | .or a b => tk (sq (ecost K a) (opt (ecost K b)))
  | .ifExp t a b => tk (sq (ecost K t) (al (ecost K a) (ecost K b)))
/-- What arguments take. -/
def ecosts (K : Known) : List Expr → Option Cost
  | [] => some nothing
  | e :: l => sq (ecost K e) (ecosts K l)
end

/-- Closes `c.le d` for concrete combinations. -/
macro "costs" : tactic => `(tactic| (simp only [Cost.le, Cost.seq, Cost.alt, step, nothing, build]; omega))

theorem within_free_still {m : M α} (h : Still m) : Within nothing (free m) := h.within

theorem within_getattr {K : Known} {c : Calls} (hc : Bounds K c) (v : Val) (x : String) {d : Cost} (h : K.prop x = some d) :
    Within (d.alt nothing) (getattr c v x) := by
  unfold getattr
  split
  · refine (within_bind (within_free_still (still_fetch _)) (d := d.alt nothing) fun o => ?_).mono (by costs)
    split
    · exact (within_pure _).mono (Cost.le_alt_right _ _)
    · exact (hc.property _ _ _ h).mono (Cost.le_alt_left _ _)
  · exact (within_pure _).mono (Cost.le_alt_right _ _)
  · exact within_raise _ _

theorem within_invoke {K : Known} {c : Calls} (hc : Bounds K c) (v : Val) (m : String) (hm : m ∉ ownMethods) (hs : m ≠ "seek") (args : List Val) :
    Within ⟨0, 0, if m ∈ eaters then 1 else 0⟩ (invoke c v m args) := by
  generalize hk : (if m ∈ eaters then 1 else 0) = k
  unfold invoke
  split
  · intro σ
    obtain ⟨e, τ, h⟩ := hc.method _ m args σ hm
    rw [h]
    exact Nat.zero_le _
  · subst hk
    exact within_ioMethod _ _ hs _
  · have : k = 0 := by rw [← hk, if_neg (by decide)]
    subst this
    split
    · split
      · exact within_pure _
      · exact within_raise _ _
    · exact within_raise _ _
  · exact within_raise _ _

theorem seq_nothing (c : Cost) : c.seq nothing = c := by simp [Cost.seq]

theorem within_done {c : Cost} {m : T α} (f : α → β) (h : Within c m) : Within c (m >>= fun a => pure (f a)) := by
  have := within_bind h fun a => within_pure (f a)
  rwa [seq_nothing] at this

theorem within_then {c : Cost} {m : T α} {f : α → M β} (h : Within c m) (hf : ∀ a, Still (f a)) : Within c (m >>= fun a => free (f a)) := by
  have := within_bind h fun a => (hf a).within
  rwa [seq_nothing] at this

mutual
theorem within_eval (P : Program) {K : Known} {c : Calls} (hc : Bounds K c) (env : Env) (e : Expr) (d : Cost) (hd : ecost K e = some d) :
    Within d (eval P c env e) := by
  match e with
  | .none | .bool _ | .int _ | .str _ | .bytes _ | .emptyList =>
    cases hd
    rw [eval]
    exact within_tick (within_pure _)
  | .name x =>
    cases hd
    rw [eval]
    refine within_tick (d := nothing) ?_
    split
    · exact within_pure _
    · exact within_raise _ _
  | .global _ | .cls _ | .enum _ => cases hd; rw [eval]; exact within_tick (d := nothing) (within_raise _ _)
  | .attr e x =>
    have ih := within_eval P hc env e
    rw [eval.eq_def]
    split
    all_goals first | (rename_i heq; cases heq; done) | (rename_i heq _; cases heq; done) | skip
    all_goals rename_i heq
    all_goals cases heq
    · rw [ecost] at hd
      cases hd
      refine within_tick (d := nothing) ?_
      split
      · split
        · exact within_pure _
        · exact within_raise _ _
      · exact within_raise _ _
    · rename_i hno
      rw [ecost] at hd
      rotate_left
      · exact hno
      obtain ⟨d', hd', rfl⟩ := tk_some hd
      obtain ⟨c1, c2, h1, h2, rfl⟩ := sq_some hd'
      obtain ⟨c2, h2', rfl⟩ := opt_some h2
      exact within_tick (within_bind (ih _ h1) fun v => within_getattr hc v x h2')
  | .call f args =>
    have hs := within_evals P hc env args
    have hf : ∀ e m, f = .attr e m → ∀ d, ecost K e = some d → Within d (eval P c env e) := by
      match f with
      | .attr e m =>
        have := within_eval P hc env e
        intro e' m' h
        cases h
        exact this
      | .none | .bool _ | .int _ | .str _ | .bytes _ | .emptyList | .name _ | .global _ | .cls _ | .enum _ | .call _ _ | .bin _ _ _ | .cmp _ _ _
      | .not _ | .and _ _ | .or _ _ | .ifExp _ _ _ => intro e' m' h; cases h
    rw [eval.eq_def]
    split
    all_goals first | (rename_i heq; cases heq; done) | (rename_i heq _; cases heq; done) | skip
    all_goals rename_i heq
    all_goals cases heq
    · rw [ecost] at hd
      obtain ⟨d', hd', rfl⟩ := tk_some hd
      obtain ⟨c1, c2, h1, h2, rfl⟩ := sq_some hd'
      obtain ⟨c2, h2', rfl⟩ := Option.map_eq_some_iff.1 h2
      exact within_tick (within_bind (hs _ h1) fun v => hc.construct _ v _ h2')
    · rw [ecost] at hd
      split at hd
      · cases hd
      · rename_i hg
        obtain ⟨d', hd', rfl⟩ := tk_some hd
        exact within_tick (within_then (hs _ hd') fun v => still_builtin hg v)
    · rename_i e x
      rw [ecost] at hd
      rw [if_neg (by decide)] at hd
      obtain ⟨d', hd', rfl⟩ := tk_some hd
      obtain ⟨c1, c2, h1, h2, rfl⟩ := sq_some hd'
      obtain ⟨c3, c4, h3, h4, rfl⟩ := sq_some h2
      have hx : ∃ c5, ecost K x = some c5 ∧ c3 = step.seq c5 := by
        rw [ecosts, ecosts, ecosts] at h3
        obtain ⟨c6, c7, h6, h7, rfl⟩ := sq_some h3
        obtain ⟨c8, c9, h8, h9, rfl⟩ := sq_some h7
        cases h9
        cases h6
        exact ⟨c8, h8, by rw [seq_nothing]⟩
      obtain ⟨c5, h5, rfl⟩ := hx
      have : Within c5 (eval P c env x) := by
        have h := hs _ h3
        exact within_eval P hc env x _ h5
      refine (within_tick (within_bind this (d := nothing) fun v => ?_)).mono ?_
      · split
        · exact within_pure _
        · exact within_raise _ _
      · cases h4
        cases h1
        rw [if_neg (by decide)]
        costs
    · rename_i hno heq
      rw [ecost] at hd
      split at hd
      · cases hd
      · rename_i hm
        have hm : _ ∉ ownMethods ∧ _ ≠ "seek" := not_or.1 hm
        obtain ⟨d', hd', rfl⟩ := tk_some hd
        obtain ⟨c1, c2, h1, h2, rfl⟩ := sq_some hd'
        obtain ⟨c3, c4, h3, h4, rfl⟩ := sq_some h2
        cases h4
        exact within_tick (within_bind (hf _ _ rfl _ h1) fun v => within_bind (hs _ h3) fun w => within_invoke hc _ _ hm.1 hm.2 _)
    · refine (within_tick (d := ⟨0, 0, d.k⟩) (within_raise _ _)).mono ?_
      unfold ecost at hd
      split at hd
      all_goals first | (rename_i heq; cases heq; done) | (rename_i heq _; cases heq; done) | skip
      all_goals simp_all
      subst hd
      costs
  | .bin op a b | .cmp op a b =>
    rw [ecost] at hd
    obtain ⟨d', hd', rfl⟩ := tk_some hd
    obtain ⟨c1, c2, h1, h2, rfl⟩ := sq_some hd'
    have ha := within_eval P hc env a _ h1
    have hb := within_eval P hc env b _ h2
    rw [eval]
    refine within_tick (within_bind ha fun x => within_then hb fun y => ?_)
    first | exact still_bin _ _ _ | exact still_cmp _ _ _
  | .not a =>
    rw [ecost] at hd
    obtain ⟨d', hd', rfl⟩ := tk_some hd
    rw [eval]
    exact within_tick (within_done _ (within_eval P hc env a _ hd'))
  | .and a b =>
    rw [ecost] at hd
    obtain ⟨d', hd', rfl⟩ := tk_some hd
    obtain ⟨c1, c2, h1, h2, rfl⟩ := sq_some hd'
    obtain ⟨c2, h2', rfl⟩ := opt_some h2
    rw [eval]
    exact within_tick (within_bind (within_eval P hc env a _ h1) fun x => within_ite (within_eval P hc env b _ h2') (within_pure _))
  | .or a b =>
    rw [ecost] at hd
    obtain ⟨d', hd', rfl⟩ := tk_some hd
    obtain ⟨c1, c2, h1, h2, rfl⟩ := sq_some hd'
    obtain ⟨c2, h2', rfl⟩ := opt_some h2
    rw [eval]
    exact within_tick (within_bind (within_eval P hc env a _ h1) fun x => (within_ite (within_pure _) (within_eval P hc env b _ h2')).mono (by costs))
  | .ifExp t a b =>
    rw [ecost] at hd
    obtain ⟨d', hd', rfl⟩ := tk_some hd
    obtain ⟨c1, c2, h1, h2, rfl⟩ := sq_some hd'
    obtain ⟨c3, c4, h3, h4, rfl⟩ := al_some h2
    rw [eval]
    exact within_tick (within_bind (within_eval P hc env t _ h1) fun x => within_ite (within_eval P hc env a _ h3) (within_eval P hc env b _ h4))
theorem within_evals (P : Program) {K : Known} {c : Calls} (hc : Bounds K c) (env : Env) (l : List Expr) (d : Cost) (hd : ecosts K l = some d) :
    Within d (evals P c env l) := by
  match l with
  | [] => cases hd; rw [evals]; exact within_pure _
  | e :: rest =>
    rw [ecosts] at hd
    obtain ⟨c1, c2, h1, h2, rfl⟩ := sq_some hd
    rw [evals]
    exact within_bind (within_eval P hc env e _ h1) fun v => within_done _ (within_evals P hc env rest _ h2)
end

end Dmr.Py.Time
