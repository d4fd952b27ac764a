import Verif.Py.ThreadsErase
/-
Where the objects and streams of a thread are in the memory does not matter: two runs of the same program whose memories correspond, address
by address, take corresponding steps.
-/

set_option autoImplicit false

namespace Dmr.Py.Threads

variable {α β : Type}

/-- Where the objects and the streams of the one memory are in the other. -/
structure Ren where
  obj : List Nat
  io : List Nat

/-- Some more. -/
def Ren.Le (ρ τ : Ren) : Prop := ρ.obj <+: τ.obj ∧ ρ.io <+: τ.io

theorem Ren.Le.refl (ρ : Ren) : ρ.Le ρ := ⟨List.prefix_refl _, List.prefix_refl _⟩
theorem Ren.Le.trans {a b c : Ren} (h : a.Le b) (k : b.Le c) : a.Le c := ⟨h.1.trans k.1, h.2.trans k.2⟩

theorem prefix_get {l m : List Nat} (h : l <+: m) {i a : Nat} (e : l[i]? = some a) : m[i]? = some a := by
  obtain ⟨t, rfl⟩ := h
  rw [List.getElem?_append_left (List.getElem?_eq_some_iff.1 e).1]
  exact e

mutual
/-- Corresponding values. -/
inductive Corr (ρ : Ren) : Val → Val → Prop
  | pv (v : PyVal) : Corr ρ (.pv v) (.pv v)
  | file (b : Bytes) : Corr ρ (.file b) (.file b)
  | obj {r s : Nat} (h : ρ.obj[r]? = some s) : Corr ρ (.obj r) (.obj s)
  | io {r s : Nat} (h : ρ.io[r]? = some s) : Corr ρ (.io r) (.io s)
  | list {l m : List Val} (h : Corrs ρ l m) : Corr ρ (.list l) (.list m)
/-- Item by item. -/
inductive Corrs (ρ : Ren) : List Val → List Val → Prop
  | nil : Corrs ρ [] []
  | cons {v w : Val} {l m : List Val} (h : Corr ρ v w) (hs : Corrs ρ l m) : Corrs ρ (v :: l) (w :: m)
end

/-- Attribute by attribute, variable by variable. -/
inductive Dict (ρ : Ren) : List (String × Val) → List (String × Val) → Prop
  | nil : Dict ρ [] []
  | cons {x : String} {v w : Val} {l m : List (String × Val)} (h : Corr ρ v w) (hs : Dict ρ l m) : Dict ρ ((x, v) :: l) ((x, w) :: m)

/-- Corresponding objects. -/
structure ObjCorr (ρ : Ren) (o p : Obj) : Prop where
  cls : o.cls = p.cls
  attrs : Dict ρ o.attrs p.attrs

/-- Corresponding ways to go on. -/
inductive FlowCorr (ρ : Ren) : Flow → Flow → Prop
  | next {e f : Env} (h : Dict ρ e f) : FlowCorr ρ (.next e) (.next f)
  | brk {e f : Env} (h : Dict ρ e f) : FlowCorr ρ (.brk e) (.brk f)
  | ret {v w : Val} (h : Corr ρ v w) : FlowCorr ρ (.ret v) (.ret w)

mutual
theorem Corr.mono {ρ τ : Ren} (l : ρ.Le τ) {v w : Val} : Corr ρ v w → Corr τ v w
  | .pv v => .pv v
  | .file b => .file b
  | .obj h => .obj (prefix_get l.1 h)
  | .io h => .io (prefix_get l.2 h)
  | .list h => .list (Corrs.mono l h)
theorem Corrs.mono {ρ τ : Ren} (l : ρ.Le τ) {v w : List Val} : Corrs ρ v w → Corrs τ v w
  | .nil => .nil
  | .cons h hs => .cons (Corr.mono l h) (Corrs.mono l hs)
end

theorem Dict.mono {ρ τ : Ren} (l : ρ.Le τ) {v w : List (String × Val)} (h : Dict ρ v w) : Dict τ v w := by
  induction h with
  | nil => exact .nil
  | cons h _ ih => exact .cons (h.mono l) ih

theorem ObjCorr.mono {ρ τ : Ren} (l : ρ.Le τ) {o p : Obj} (h : ObjCorr ρ o p) : ObjCorr τ o p := ⟨h.cls, h.attrs.mono l⟩

/-- Both missing, or both there and corresponding. -/
inductive Maybe (ρ : Ren) : Option Val → Option Val → Prop
  | none : Maybe ρ none none
  | some {v w : Val} (h : Corr ρ v w) : Maybe ρ (some v) (some w)

theorem Dict.lookup {ρ : Ren} {l m : List (String × Val)} (h : Dict ρ l m) (x : String) : Maybe ρ (l.lookup x) (m.lookup x) := by
  induction h with
  | nil => exact .none
  | @cons y v w l m h _ ih =>
    rw [List.lookup_cons, List.lookup_cons]
    cases x == y
    · exact ih
    · exact .some h

theorem Dict.upsert {ρ : Ren} {l m : List (String × Val)} (h : Dict ρ l m) (x : String) {v w : Val} (hv : Corr ρ v w) : Dict ρ (upsert x v l) (upsert x w m) := by
  induction h with
  | nil => exact .cons hv .nil
  | @cons y a b l m h hs ih =>
    rw [Py.upsert, Py.upsert]
    split
    · exact .cons hv hs
    · exact .cons h ih

theorem Corrs.append {ρ : Ren} {a b c d : List Val} (h : Corrs ρ a b) (k : Corrs ρ c d) : Corrs ρ (a ++ c) (b ++ d) := by
  induction a generalizing b with
  | nil => cases h; exact k
  | cons v a ih =>
    cases h with
    | cons h hs => exact .cons h (ih hs)

theorem Corrs.length {ρ : Ren} {a b : List Val} (h : Corrs ρ a b) : a.length = b.length := by
  induction a generalizing b with
  | nil => cases h; rfl
  | cons v a ih =>
    cases h with
    | cons h hs => rw [List.length_cons, List.length_cons, ih hs]

theorem corrs_plain (ρ : Ren) : ∀ l : List PyVal, Corrs ρ (l.map .pv) (l.map .pv)
  | [] => .nil
  | v :: l => .cons (.pv v) (corrs_plain ρ l)

theorem corrs_none (ρ : Ren) : ∀ n, Corrs ρ (List.replicate n (.pv .none)) (List.replicate n (.pv .none))
  | 0 => .nil
  | n + 1 => .cons (.pv _) (corrs_none ρ n)

theorem dict_zip {ρ : Ren} : ∀ (p : List String) {a b : List Val}, Corrs ρ a b → Dict ρ (p.zip a) (p.zip b)
  | [], _, _, _ => .nil
  | _ :: _, _, _, .nil => .nil
  | _ :: p, _, _, .cons h hs => .cons h (dict_zip p hs)

theorem truthy_corr {ρ : Ren} {v w : Val} (h : Corr ρ v w) : truthy v = truthy w := by
  cases h with
  | list h => cases h <;> rfl
  | _ => rfl

theorem same_corr {ρ : Ren} {a b c d : Val} (h : Corr ρ a b) (k : Corr ρ c d) : same a c = same b d := by
  cases h <;> cases k <;> first | rfl | (rename_i v _ _ _; cases v <;> rfl) | (rename_i v _; cases v <;> rfl) | (rename_i v _ _; cases v <;> rfl)

/-- The threads take corresponding steps, whatever they find, and even if others have made more objects and streams meanwhile. What they come to is
related by `Q`. -/
inductive Sim (Q : Ren → α → β → Prop) : Ren → R α → R β → Prop
  | done {ρ : Ren} {a : α} {b : β} (h : Q ρ a b) : Sim Q ρ (.done a) (.done b)
  | raise {ρ : Ren} (e : PyErr) : Sim Q ρ (.raise e) (.raise e)
  | fetch {ρ : Ren} {r s : Nat} {k : Obj → R α} {l : Obj → R β} (h : ρ.obj[r]? = some s) (hk : ∀ τ : Ren, ρ.Le τ → ∀ o p, ObjCorr τ o p → Sim Q τ (k o) (l p)) :
      Sim Q ρ (.fetch r k) (.fetch s l)
  | store {ρ : Ren} {r s : Nat} {x : String} {v w : Val} {k : R α} {l : R β} (h : ρ.obj[r]? = some s) (hv : Corr ρ v w) (hk : Sim Q ρ k l) :
      Sim Q ρ (.store r x v k) (.store s x w l)
  | alloc {ρ : Ren} {c : String} {k : Nat → R α} {l : Nat → R β} (hk : ∀ τ : Ren, ρ.Le τ → ∀ n, Sim Q ⟨τ.obj ++ [n], τ.io⟩ (k τ.obj.length) (l n)) :
      Sim Q ρ (.alloc c k) (.alloc c l)
  | stream {ρ : Ren} {b : Bytes} {k : Nat → R α} {l : Nat → R β} (hk : ∀ τ : Ren, ρ.Le τ → ∀ n, Sim Q ⟨τ.obj, τ.io ++ [n]⟩ (k τ.io.length) (l n)) :
      Sim Q ρ (.stream b k) (.stream b l)
  | io {ρ : Ren} {r s : Nat} {m : String} {a : List PyVal} {k : Val → R α} {l : Val → R β} (h : ρ.io[r]? = some s) (hk : ∀ v, Sim Q ρ (k (.pv v)) (l (.pv v))) :
      Sim Q ρ (.io r m a k) (.io s m a l)
  | size {ρ : Ren} {r s : Nat} {k : Nat → R α} {l : Nat → R β} (h : ρ.io[r]? = some s) (hk : ∀ n, Sim Q ρ (k n) (l n)) : Sim Q ρ (.size r k) (.size s l)

theorem le_obj (ρ : Ren) (n : Nat) : ρ.Le ⟨ρ.obj ++ [n], ρ.io⟩ := ⟨List.prefix_append _ _, List.prefix_refl _⟩
theorem le_io (ρ : Ren) (n : Nat) : ρ.Le ⟨ρ.obj, ρ.io ++ [n]⟩ := ⟨List.prefix_refl _, List.prefix_append _ _⟩

theorem Sim.bind {γ δ : Type} {Q : Ren → α → β → Prop} {S : Ren → γ → δ → Prop} {ρ : Ren} {p : R α} {q : R β} {f : α → R γ} {g : β → R δ} (h : Sim Q ρ p q)
    (hf : ∀ τ a b, ρ.Le τ → Q τ a b → Sim S τ (f a) (g b)) : Sim S ρ (p >>= f) (q >>= g) := by
  show Sim S ρ (p.bind f) (q.bind g)
  induction h with
  | done h => exact hf _ _ _ (Ren.Le.refl _) h
  | raise e => exact .raise e
  | fetch h _ ih => exact .fetch h fun τ l o p hp => ih τ l o p hp fun υ a b k => hf υ a b (l.trans k)
  | store h hv _ ih => exact .store h hv (ih hf)
  | alloc _ ih => exact .alloc fun τ l n => ih τ l n fun υ a b k => hf υ a b (l.trans ((le_obj _ n).trans k))
  | stream _ ih => exact .stream fun τ l n => ih τ l n fun υ a b k => hf υ a b (l.trans ((le_io _ n).trans k))
  | io h _ ih => exact .io h fun v => ih v hf
  | size h _ ih => exact .size h fun v => ih v hf

/-- More may have been made meanwhile. -/
theorem Sim.mono {Q : Ren → α → β → Prop} (hQ : ∀ ρ τ a b, ρ.Le τ → Q ρ a b → Q τ a b) {ρ : Ren} {p : R α} {q : R β} (h : Sim Q ρ p q) :
    ∀ {τ : Ren}, ρ.Le τ → Sim Q τ p q := by
  induction h with
  | done h => exact fun l => .done (hQ _ _ _ _ l h)
  | raise e => exact fun _ => .raise e
  | fetch h hk _ => exact fun l => .fetch (prefix_get l.1 h) fun υ k => hk υ (l.trans k)
  | store h hv _ ih => exact fun l => .store (prefix_get l.1 h) (hv.mono l) (ih l)
  | alloc hk _ => exact fun l => .alloc fun υ k => hk υ (l.trans k)
  | stream hk _ => exact fun l => .stream fun υ k => hk υ (l.trans k)
  | io h _ ih => exact fun l => .io (prefix_get l.2 h) fun v => ih v l
  | size h _ ih => exact fun l => .size (prefix_get l.2 h) fun v => ih v l

theorem sim_pure {Q : Ren → α → β → Prop} {ρ : Ren} {a : α} {b : β} (h : Q ρ a b) : Sim Q ρ (pure a) (pure b) := .done h

theorem sim_ite {Q : Ren → α → β → Prop} {ρ : Ren} {c d : Prop} [Decidable c] [Decidable d] {a b : R α} {a' b' : R β} (e : c ↔ d) (ha : Sim Q ρ a a') (hb : Sim Q ρ b b') :
    Sim Q ρ (if c then a else b) (if d then a' else b') := by
  by_cases h : c
  · rw [if_pos h, if_pos (e.1 h)]; exact ha
  · rw [if_neg h, if_neg (fun k => h (e.2 k))]; exact hb

theorem sim_get {ρ : Ren} {r s : Nat} (h : ρ.obj[r]? = some s) : Sim ObjCorr ρ (R.get r) (R.get s) := .fetch h fun _ _ _ _ hp => .done hp
theorem sim_put {ρ : Ren} {r s : Nat} (h : ρ.obj[r]? = some s) (x : String) {v w : Val} (hv : Corr ρ v w) : Sim (fun _ _ _ => True) ρ (R.put r x v) (R.put s x w) :=
  .store h hv (.done trivial)
theorem sim_use {ρ : Ren} {r s : Nat} (h : ρ.io[r]? = some s) (m : String) (a : List PyVal) : Sim Corr ρ (R.use r m a) (R.use s m a) := .io h fun v => .done (.pv v)
theorem sim_length {ρ : Ren} {r s : Nat} (h : ρ.io[r]? = some s) : Sim (fun _ a b => a = b) ρ (R.length r) (R.length s) := .size h fun _ => .done rfl
theorem sim_new (ρ : Ren) (c : String) : Sim (fun τ a b => τ.obj[a]? = some b) ρ (R.new c) (R.new c) := .alloc fun _ _ n => .done (by simp)
theorem sim_open (ρ : Ren) (b : Bytes) : Sim (fun τ a b => τ.io[a]? = some b) ρ (R.open_ b) (R.open_ b) := .stream fun _ _ n => .done (by simp)

/-- Calls do not care where things are. -/
structure CallsSim (c : Calls) : Prop where
  construct : ∀ (ρ : Ren) (n : String) (a b : List Val), Corrs ρ a b → Sim Corr ρ (c.construct n a) (c.construct n b)
  method : ∀ (ρ : Ren) (r s : Nat) (m : String) (a b : List Val), ρ.obj[r]? = some s → Corrs ρ a b → Sim Corr ρ (c.method r m a) (c.method s m b)
  property : ∀ (ρ : Ren) (r s : Nat) (x : String), ρ.obj[r]? = some s → Sim Corr ρ (c.property r x) (c.property s x)

theorem sim_still_plain (ρ : Ren) (m : M Val) (h : ∀ v σ, m.run ⟨[], []⟩ = .ok v σ → ∃ p, v = .pv p) : Sim Corr ρ (still m) (still m) := by
  unfold still
  rcases hr : m.run ⟨[], []⟩ with ⟨v, σ⟩ | ⟨e, σ⟩
  · obtain ⟨p, rfl⟩ := h v σ hr
    exact .done (.pv p)
  · exact .raise e

theorem sim_binOp {ρ : Ren} (op : BinOp) {a b c d : Val} (h : Corr ρ a b) (k : Corr ρ c d) : Sim Corr ρ (still (op.apply a c)) (still (op.apply b d)) := by
  have hr : ∀ e : PyErr, Sim (α := Val) (β := Val) Corr ρ (still (Py.raise e)) (still (Py.raise e)) := fun e => .raise e
  cases h with
  | pv v =>
    cases k with
    | pv w =>
      refine sim_still_plain ρ _ fun u σ hu => ?_
      rw [BinOp.apply.eq_def] at hu
      revert hu
      split
      all_goals first | (intro hu; cases hu; exact ⟨_, rfl⟩) | (intro hu; cases hu) | (split <;> (intro hu; cases hu) ; exact ⟨_, rfl⟩)
    | _ => cases op <;> cases v <;> first | exact hr _ | (rename_i i; cases i <;> exact hr _) | (rename_i i _; cases i <;> exact hr _)
  | _ => cases op <;> exact hr _

theorem sim_cmpOp {ρ : Ren} (op : CmpOp) {a b c d : Val} (h : Corr ρ a b) (k : Corr ρ c d) : Sim Corr ρ (still (op.apply a c)) (still (op.apply b d)) := by
  have hr : ∀ e : PyErr, Sim (α := Val) (β := Val) Corr ρ (still (Py.raise e)) (still (Py.raise e)) := fun e => .raise e
  cases op with
  | eq =>
    show Sim Corr ρ (R.done (.pv (.bool (same a c)))) (R.done (.pv (.bool (same b d))))
    rw [same_corr h k]
    exact .done (.pv _)
  | ne =>
    show Sim Corr ρ (R.done (.pv (.bool (!same a c)))) (R.done (.pv (.bool (!same b d))))
    rw [same_corr h k]
    exact .done (.pv _)
  | _ =>
    cases h with
    | pv v =>
      cases k with
      | pv w => cases v <;> cases w <;> first | exact .done (.pv _) | exact hr _
      | _ => cases v <;> exact hr _
    | _ => exact hr _

end Dmr.Py.Threads
