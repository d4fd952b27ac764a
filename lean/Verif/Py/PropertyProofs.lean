import Verif.Py.PropertySpec
import Verif.Py.Base
/-
How properties are run, in general.
-/

set_option autoImplicit false

namespace Dmr.Py

open Dmr

/-! ### Memory -/

/-- Objects stay, with their classes and attributes, apart from what properties remember. -/
def Stays (h h' : List Obj) : Prop :=
  ∀ (q : Nat) (o : Obj), h[q]? = some o → ∃ o' : Obj, h'[q]? = some o' ∧ o'.cls = o.cls ∧ ∀ x, x ∉ memos → o'.get x = o.get x

theorem Reads.stays {h h' : List Obj} (s : Stays h h') {w : Val} {v : PyVal} (e : Reads h w v) : Reads h' w v :=
  Reads.rec (motive_1 := fun w v _ => Reads h' w v) (motive_2 := fun w v _ => ReadsItems h' w v)
    (fun v h1 h2 => .plain v h1 h2) (fun _ ih => .list ih)
    (fun f at_ names _ ih => by
      obtain ⟨⟨cls, attrs⟩, h1, rfl, h3⟩ := s _ _ at_
      exact .object f h1 (fun x hl hm => (h3 x hm).trans (names x hl hm)) ih)
    .nil (fun _ _ ih ihs => .cons ih ihs) e

theorem Like.stays {h h' : List Obj} (s : Stays h h') {w : Option Val} {v : Option PyVal} (e : Like h w v) : Like h' w v := by
  cases w <;> cases v <;> first | exact e | exact Reads.stays s e

theorem Rest.stays {r k : Nat} {σ τ : State} (h : Rest r k σ τ) : Stays σ.heap τ.heap := by
  intro q o ho
  by_cases e : q = r
  · subst e; exact h.self o ho
  · exact ⟨o, h.others q o e ho, rfl, fun _ _ => rfl⟩

theorem Rest.refl (r k : Nat) (σ : State) : Rest r k σ σ :=
  ⟨fun _ _ _ h => h, fun o h => ⟨o, h, rfl, fun _ _ => rfl⟩, fun _ _ _ h => h⟩

theorem Rest.trans {r k : Nat} {σ τ υ : State} (h1 : Rest r k σ τ) (h2 : Rest r k τ υ) : Rest r k σ υ := by
  refine ⟨fun q o e h => h2.others q o e (h1.others q o e h), fun o h => ?_, fun j s e h => h2.streams j s e (h1.streams j s e h)⟩
  obtain ⟨o1, a1, b1, c1⟩ := h1.self o h
  obtain ⟨o2, a2, b2, c2⟩ := h2.self o1 a1
  exact ⟨o2, a2, b2.trans b1, fun x hx => (c2 x hx).trans (c1 x hx)⟩

theorem lookup_upsert (x y : String) (v : Val) : ∀ l : List (String × Val),
    (upsert x v l).lookup y = if y = x then some v else l.lookup y
  | [] => by rw [upsert, lookup_cons]
  | (z, w) :: l => by
    rw [upsert, lookup_cons]
    by_cases h : x = z
    · subst h
      rw [if_pos rfl, lookup_cons]
      split <;> rfl
    · rw [if_neg h, lookup_cons, lookup_upsert x y v l]
      by_cases h1 : y = z
      · subst h1
        rw [if_pos rfl, if_neg (fun e => h e.symm), if_pos rfl]
      · rw [if_neg h1, if_neg h1]

theorem lookup_snoc {β : Type} (x y : String) (v : β) : ∀ l : List (String × β), l.lookup x = none →
    (l ++ [(x, v)]).lookup y = if y = x then some v else l.lookup y
  | [], _ => by rw [List.nil_append, lookup_cons]
  | (z, w) :: l, h => by
    rw [lookup_cons] at h
    by_cases hz : x = z
    · rw [if_pos hz] at h; cases h
    · rw [if_neg hz] at h
      rw [List.cons_append, lookup_cons, lookup_cons, lookup_snoc x y v l h]
      by_cases h1 : y = z
      · subst h1
        rw [if_pos rfl, if_neg (fun e => hz e.symm), if_pos rfl]
      · rw [if_neg h1, if_neg h1]

/-- Remembering a value. -/
theorem Rest.store {r k : Nat} {σ : State} {cls x : String} {attrs : List (String × Val)} (v : Val) (ho : σ.heap[r]? = some ⟨cls, attrs⟩) (hx : x ∈ memos) :
    Rest r k σ ⟨σ.heap.set r ⟨cls, upsert x v attrs⟩, σ.streams⟩ := by
  have hr := lt_of_getElem? ho
  refine ⟨fun q o e h => ?_, fun o h => ?_, fun _ _ _ h => h⟩
  · rw [List.getElem?_set_ne (fun e' => e e'.symm)]; exact h
  · rw [ho] at h
    cases h
    refine ⟨⟨cls, upsert x v attrs⟩, List.getElem?_set_self hr, rfl, fun y hy => ?_⟩
    exact (lookup_upsert x y v attrs).trans (if_neg fun (e : y = x) => hy (e ▸ hx))

theorem Rest.seek {r k : Nat} {σ : State} (s : Stream) : Rest r k σ ⟨σ.heap, σ.streams.set k s⟩ :=
  ⟨fun _ _ _ h => h, fun o h => ⟨o, h, rfl, fun _ _ => rfl⟩, fun j t e h => by rw [List.getElem?_set_ne (fun e' => e e'.symm)]; exact h⟩

theorem Rest.grow {r k : Nat} {σ : State} (T : List Obj) (S : List Stream) : Rest r k σ ⟨σ.heap ++ T, σ.streams ++ S⟩ := by
  refine ⟨fun q o _ h => ?_, fun o h => ⟨o, ?_, rfl, fun _ _ => rfl⟩, fun j t _ h => ?_⟩
  · rw [List.getElem?_append_left (lt_of_getElem? h)]; exact h
  · rw [List.getElem?_append_left (lt_of_getElem? h)]; exact h
  · exact (List.getElem?_append_left (List.getElem?_eq_some_iff.1 h).1).trans h

/-! ### Objects -/

variable {c : LazyClass} {o : PyObj c.Attrs} {σ τ : State} {r k : Nat} {io : Stream}

/-- An object stays what it is if others change. -/
theorem Holds.other {r' k' : Nat} {io' : Stream} (h : Holds σ r k c o io) (hr : r ≠ r') (e : Rest r' k' σ τ) (hs : τ.streams[k]? = some io') :
    Holds τ r k c o io' := by
  obtain ⟨cls, vs, attrs, h1, h2, h3, h4, h5⟩ := h.object
  exact ⟨hs, cls, vs, attrs, h1, e.others _ _ hr h2, h3, h4, fun x hx => (h5 x hx).stays e.stays⟩

/-- Remembering a value. -/
theorem Holds.store (h : Holds σ r k c o io) {cls x : String} {attrs : List (String × Val)} (ho : σ.heap[r]? = some ⟨cls, attrs⟩) (hx : x ∈ memos)
    {w : Val} {v : PyVal} (hw : Reads σ.heap w v) {o' : PyObj c.Attrs} (ha : o'.attrs = o.attrs)
    (hc : ∀ y ∈ memos, o'.caches.lookup y = if y = x then some v else o.caches.lookup y) :
    Holds ⟨σ.heap.set r ⟨cls, upsert x w attrs⟩, σ.streams⟩ r k c o' io := by
  have hrest := Rest.store (k := k) w ho hx
  obtain ⟨cls', vs, attrs', h1, h2, h3, h4, h5⟩ := h.object
  rw [ho] at h2
  cases h2
  have hl : ∀ y ∈ links, y ≠ x := by
    rintro y hy rfl
    simp only [links, List.mem_cons, List.not_mem_nil, or_false] at hy
    rcases hy with rfl | rfl | rfl <;> revert hx <;> decide
  refine ⟨h.stream, cls, vs, upsert x w attrs, ha ▸ h1, by rw [List.getElem?_set_self (lt_of_getElem? ho)], ?_, fun hf => ?_, fun y hy => ?_⟩
  · rw [lookup_upsert, if_neg (hl _ (by simp [links]))]; exact h3
  · rw [lookup_upsert, if_neg (hl _ (by simp [links]))]; exact h4 hf
  · rw [lookup_upsert]
    by_cases e : y = x
    · subst e
      rw [if_pos rfl, if_pos hx, hc _ hx, if_pos rfl]
      exact hw.stays hrest.stays
    · rw [if_neg e]
      have := (h5 y hy).stays hrest.stays
      by_cases hm : y ∈ memos
      · rw [if_pos hm] at this ⊢
        rw [hc y hm, if_neg e]
        exact this
      · rw [if_neg hm] at this ⊢
        exact this

theorem Holds.seek (h : Holds σ r k c o io) (s : Stream) : Holds ⟨σ.heap, σ.streams.set k s⟩ r k c o s :=
  ⟨List.getElem?_set_self (List.getElem?_eq_some_iff.1 h.stream).1, h.object⟩

theorem Holds.grow (h : Holds σ r k c o io) (T : List Obj) (S : List Stream) : Holds ⟨σ.heap ++ T, σ.streams ++ S⟩ r k c o io := by
  obtain ⟨cls, vs, attrs, h1, h2, h3, h4, h5⟩ := h.object
  have e : Rest r k σ ⟨σ.heap ++ T, σ.streams ++ S⟩ := Rest.grow T S
  exact ⟨(List.getElem?_append_left (List.getElem?_eq_some_iff.1 h.stream).1).trans h.stream, cls, vs, attrs, h1,
    (List.getElem?_append_left (lt_of_getElem? h2)).trans h2, h3, h4, fun x hx => (h5 x hx).stays e.stays⟩

/-! ### Running -/

theorem fetch_run {ob : Obj} (h : σ.heap[r]? = some ob) : (fetch r).run σ = .ok ob σ := by simp [M.run, fetch, h]

theorem getattr_run {C : Calls} {cls x : String} {attrs : List (String × Val)} {w : Val} (h : σ.heap[r]? = some ⟨cls, attrs⟩) (hx : attrs.lookup x = some w) :
    (getattr C (.obj r) x).run σ = .ok w σ := by
  unfold getattr
  rw [run_bind, fetch_run h, bind_ok]
  dsimp only
  rw [hx]
  rfl

theorem getattr_property {C : Calls} {cls x : String} {attrs : List (String × Val)} (h : σ.heap[r]? = some ⟨cls, attrs⟩) (hx : attrs.lookup x = none) :
    (getattr C (.obj r) x).run σ = (C.property r x).run σ := by
  unfold getattr
  rw [run_bind, fetch_run h, bind_ok]
  dsimp only
  rw [hx]

theorem store_run {cls x : String} {attrs : List (String × Val)} {w : Val} (h : σ.heap[r]? = some ⟨cls, attrs⟩) :
    (store r x w).run σ = .ok () ⟨σ.heap.set r ⟨cls, upsert x w attrs⟩, σ.streams⟩ := by simp [M.run, store, h]

theorem onStream_run {α : Type} (R : Rd α) (h : σ.streams[k]? = some io) :
    (onStream k R).run σ = after R io (fun e s' => .raise e ⟨σ.heap, σ.streams.set k s'⟩) (fun a s' => .ok a ⟨σ.heap, σ.streams.set k s'⟩) := by
  simp [M.run, onStream, h]

/-- `@property def p(self): if hasattr(self, m): return self.m; stmts; return getattr(self, m, None)` -/
def lazyProperty (m : String) (stmts : List Stmt) : Function :=
  ⟨["self"], .if_ (.call (.global "hasattr") [.name "self", .str m]) [.return_ (.attr (.name "self") m)] [] ::
    (stmts ++ [.return_ (.call (.global "getattr") [.name "self", .str m, .none])])⟩

theorem execs_append (P : Program) (C : Calls) : ∀ (l m : List Stmt) (env : Env),
    execs P C (l ++ m) env = (do andThen (execs P C m) (← execs P C l env))
  | [], m, env => by
    funext σ
    rw [List.nil_append, execs_nil]
    rfl
  | s :: l, m, env => by
    rw [List.cons_append, execs_cons, execs_cons]
    funext σ
    show ((exec P C s env >>= fun f => andThen (execs P C (l ++ m)) f) : M Flow).run σ =
      (((exec P C s env >>= fun f => andThen (execs P C l) f) >>= fun f => andThen (execs P C m) f) : M Flow).run σ
    rw [run_bind, run_bind, run_bind, bind_bind]
    congr 1
    funext f τ
    cases f with
    | next env' => rw [andThen_next, andThen_next, execs_append P C l m env', run_bind]
    | brk env' => rfl
    | ret v => rfl

/-- What the statements of a property lead to. -/
def BodySim (σ : State) (r k : Nat) (c : LazyClass) (m : String) (out : Out Flow)
    (b : Except PyErr (Option PyVal) × PyObj c.Attrs × Stream) : Prop :=
  ∃ τ, Rest r k σ τ ∧
    match b with
    | (.error e, o', io') => out = .raise e τ ∧ Holds τ r k c o' io'
    | (.ok none, o', io') => ∃ env, out = .ok (.next env) τ ∧ env.lookup "self" = some (.obj r) ∧ Holds τ r k c o' io' ∧ o'.caches.lookup m = none
    | (.ok (some v), o', io') => ∃ env, out = .ok (.next env) τ ∧ env.lookup "self" = some (.obj r) ∧ o'.caches.lookup m = none ∧
        Holds τ r k c { o' with caches := o'.caches ++ [(m, v)] } io'

theorem hasattr_run {P : Program} {C : Calls} {cls m : String} {attrs : List (String × Val)} {env : Env} (he : env.lookup "self" = some (.obj r))
    (h : σ.heap[r]? = some ⟨cls, attrs⟩) :
    (eval P C env (.call (.global "hasattr") [.name "self", .str m])).run σ = .ok (.pv (.bool (attrs.lookup m).isSome)) σ := by
  have hv : var env "self" = pure (.obj r) := by unfold var; rw [he]
  py_run [hv, builtin, fetch_run h, String.ofList_toList]

theorem getattr3_run {P : Program} {C : Calls} {cls m : String} {attrs : List (String × Val)} {env : Env} (he : env.lookup "self" = some (.obj r))
    (h : σ.heap[r]? = some ⟨cls, attrs⟩) :
    (eval P C env (.call (.global "getattr") [.name "self", .str m, .none])).run σ = .ok ((attrs.lookup m).getD (.pv .none)) σ := by
  have hv : var env "self" = pure (.obj r) := by unfold var; rw [he]
  py_run [hv, builtin, fetch_run h, String.ofList_toList]

/-- A property in general. -/
theorem sim_property {n : Nat} {cls p m : String} {cd : ClassDef} {stmts : List Stmt} {body : GetterBody c.Attrs}
    (hcls : ∀ x : c.Attrs, ∃ vs, c.view x = .struct cls vs) (hp0 : p ∉ links ∧ p ∉ memos) (hp1 : ∀ x : c.Attrs, ∀ vs, c.view x = .struct cls vs → vs.lookup p = none)
    (hm : "_m_" ++ p = m) (hmm : m ∈ memos) (hml : m ∉ links)
    (hc : library.class cls = some cd) (hp : cd.properties.lookup p = some (lazyProperty m stmts))
    (hb : ∀ {σ : State} {o : PyObj c.Attrs} {io : Stream}, Holds σ r k c o io → o.caches.lookup m = none →
      BodySim σ r k c m ((execs library (calls library n) stmts [("self", .obj r)]).run σ) (body o io))
    (h : Holds σ r k c o io) : Simulates σ r k c (access library (n + 1) r p σ) (property p body o io) := by
  obtain ⟨cls', vs, attrs, h1, h2, h3, h4, h5⟩ := h.object
  obtain ⟨vs', h1'⟩ := hcls o.attrs
  rw [h1] at h1'
  cases h1'
  have hnone : attrs.lookup p = none := by
    have := h5 p hp0.1
    rw [if_neg hp0.2, hp1 _ _ h1] at this
    cases hx : attrs.lookup p with
    | none => rfl
    | some w => rw [hx] at this; exact this.elim
  have hmemo := h5 m hml
  rw [if_pos hmm] at hmemo
  unfold access
  rw [getattr_property h2 hnone]
  have hprop : library.property cls p = some (lazyProperty m stmts) := by unfold Program.property; rw [hc]; exact hp
  have hrun : ((calls library (n + 1)).property r p).run σ = ((lazyProperty m stmts).call library (calls library n) [.obj r]).run σ := by
    show (fetch r >>= _ : M Val).run σ = _
    rw [run_bind, fetch_run h2, bind_ok]
    simp only [hprop]
  rw [hrun]
  have hcall : ((lazyProperty m stmts).call library (calls library n) [.obj r]).run σ =
      ((execs library (calls library n) (lazyProperty m stmts).body [("self", .obj r)]).run σ).bind fun f τ =>
        match f with | .ret v => .ok v τ | _ => .ok (.pv .none) τ := by
    unfold Function.call
    rw [run_bind]
    congr 1
    funext f τ
    cases f <;> rfl
  rw [hcall]
  show Simulates _ _ _ _ (Out.bind (M.run (execs library (calls library n) (.if_ (.call (.global "hasattr") [.name "self", .str m])
    [.return_ (.attr (.name "self") m)] [] :: (stmts ++ [.return_ (.call (.global "getattr") [.name "self", .str m, .none])])) [("self", .obj r)]) σ) _) _
  rw [execs_cons, run_bind, exec_if, run_bind, hasattr_run (P := library) (C := calls library n) (m := m) (env := [("self", .obj r)]) rfl h2, bind_ok]
  unfold property
  rw [hm]
  cases hl : attrs.lookup m with
  | some w =>
    cases hcache : o.caches.lookup m with
    | none => rw [hl, hcache] at hmemo; exact hmemo.elim
    | some v =>
      rw [hl, hcache] at hmemo
      refine ⟨σ, ⟨w, ?_, hmemo⟩, h, Rest.refl r k σ⟩
      py_run [truthy, Option.isSome_some, if_true, fetch_run h2, hl]
  | none =>
    cases hcache : o.caches.lookup m with
    | some v => rw [hl, hcache] at hmemo; exact hmemo.elim
    | none =>
      have hrun2 : (if truthy (.pv (.bool (none : Option Val).isSome)) = true then execs library (calls library n) [.return_ (.attr (.name "self") m)] [("self", .obj r)]
          else execs library (calls library n) [] [("self", .obj r)]).run σ = .ok (.next [("self", .obj r)]) σ := by
        rw [if_neg (by simp [truthy]), execs_nil]; rfl
      rw [hrun2, bind_ok, andThen_next, execs_append, run_bind]
      obtain ⟨τ, hrest, hb⟩ := hb h hcache
      dsimp only
      rcases hbody : body o io with ⟨e | v, o', io'⟩
      · rw [hbody] at hb
        refine ⟨τ, ?_, hb.2, hrest⟩
        rw [hb.1]; rfl
      · rw [hbody] at hb
        have final : ∀ {env : Env} {o'' : PyObj c.Attrs} {io' : Stream}, env.lookup "self" = some (.obj r) → Holds τ r k c o'' io' →
            ∃ w, (Like τ.heap w (o''.caches.lookup m)) ∧ ((execs library (calls library n) [.return_ (.call (.global "getattr") [.name "self", .str m, .none])] env).run τ) =
              .ok (.ret (w.getD (.pv .none))) τ := by
          intro env o'' io' he hh
          obtain ⟨cls2, vs2, attrs2, -, g2, -, -, g5⟩ := hh.object
          have := g5 m hml
          rw [if_pos hmm] at this
          refine ⟨_, this, ?_⟩
          rw [execs_cons, run_bind, exec_return, run_bind, getattr3_run he g2]
          rfl
        cases v with
        | none =>
          obtain ⟨env, hr, he, hh, hn⟩ := hb
          obtain ⟨w, hw, hf⟩ := final he hh
          rw [hn] at hw
          cases w with
          | some w => exact hw.elim
          | none =>
            refine ⟨τ, ⟨.pv .none, ?_, .plain _ (by simp) (by simp)⟩, hh, hrest⟩
            rw [hr, bind_ok, andThen_next, hf]; rfl
        | some v =>
          obtain ⟨env, hr, he, hn, hh⟩ := hb
          obtain ⟨w, hw, hf⟩ := final he hh
          rw [lookup_snoc _ _ _ _ hn, if_pos rfl] at hw
          cases w with
          | none => exact hw.elim
          | some w =>
            refine ⟨τ, ⟨w, ?_, hw⟩, hh, hrest⟩
            rw [hr, bind_ok, andThen_next, hf]; rfl

/-! ### What properties use -/

/-- Neither an object nor a list. -/
def IsPlain (v : PyVal) : Prop := (∀ cls vs, v ≠ .struct cls vs) ∧ ∀ vs, v ≠ .list vs

theorem Reads.eq_plain {h : List Obj} {w : Val} {v : PyVal} (hv : IsPlain v) (e : Reads h w v) : w = .pv v := by
  cases e with
  | plain v h1 h2 => rfl
  | list e => exact absurd rfl (hv.2 _)
  | object f a b c => exact absurd rfl (hv.1 _ _)

theorem Like.some {h : List Obj} {w : Option Val} {v : PyVal} (e : Like h w (some v)) : ∃ w', w = some w' ∧ Reads h w' v := by
  cases w with
  | none => exact e.elim
  | some w => exact ⟨w, rfl, e⟩

theorem Like.none {h : List Obj} {w : Option Val} (e : Like h w none) : w = none := by
  cases w with
  | none => rfl
  | some w => exact e.elim

/-- The object in the memory. -/
theorem Holds.open (h : Holds σ r k c o io) {cls : String} {vs : List (String × PyVal)} (hv : c.view o.attrs = .struct cls vs) :
    ∃ attrs, σ.heap[r]? = some ⟨cls, attrs⟩ ∧ attrs.lookup "_io" = some (.io k) ∧ (cls ∈ fileClasses → attrs.lookup "_root" = some (.obj r)) ∧
      (∀ x v, x ∉ links → x ∉ memos → vs.lookup x = some v → ∃ w, attrs.lookup x = some w ∧ Reads σ.heap w v) ∧
      (∀ x v, x ∉ links → x ∉ memos → vs.lookup x = some v → IsPlain v → attrs.lookup x = some (.pv v)) ∧
      (∀ x, x ∉ links → x ∉ memos → vs.lookup x = none → attrs.lookup x = none) := by
  obtain ⟨cls', vs', attrs, h1, h2, h3, h4, h5⟩ := h.object
  rw [hv] at h1
  cases h1
  have h6 : ∀ x v, x ∉ links → x ∉ memos → vs.lookup x = .some v → ∃ w, attrs.lookup x = .some w ∧ Reads σ.heap w v := fun x v hl hm hx => by
    have := h5 x hl
    rw [if_neg hm, hx] at this
    exact this.some
  refine ⟨attrs, h2, h3, h4, h6, fun x v hl hm hx hp => ?_, fun x hl hm hx => ?_⟩
  · obtain ⟨w, hw, hr⟩ := h6 x v hl hm hx
    rw [hw, hr.eq_plain hp]
  · have := h5 x hl
    rw [if_neg hm, hx] at this
    exact this.none

/-- A property that is computed from attributes. -/
theorem body_attrs {n : Nat} {m : String} {E : Expr} {f : c.Attrs → Except PyErr PyVal} (hmm : m ∈ memos)
    (hf : ∀ x v, f x = .ok v → IsPlain v)
    (hE : ∀ {σ : State} {o : PyObj c.Attrs} {io : Stream}, Holds σ r k c o io →
      (eval library (calls library n) [("self", .obj r)] E).run σ = match f o.attrs with | .ok v => .ok (.pv v) σ | .error e => .raise e σ)
    (h : Holds σ r k c o io) (hn : o.caches.lookup m = none) :
    BodySim σ r k c m ((execs library (calls library n) [.setattr (.name "self") m E] [("self", .obj r)]).run σ) (fromAttrs f o io) := by
  have hE := hE h
  obtain ⟨cls', vs, attrs, h1, h2, h3, h4, h5⟩ := h.object
  unfold fromAttrs
  cases hx : f o.attrs with
  | error e =>
    rw [hx] at hE
    refine ⟨σ, Rest.refl r k σ, ?_, h⟩
    py_run [hE]
  | ok v =>
    rw [hx] at hE
    have hp := hf _ _ hx
    refine ⟨_, Rest.store (k := k) (.pv v) h2 hmm, [("self", .obj r)], ?_, rfl, hn, h.store h2 hmm (.plain v hp.1 hp.2) rfl fun y _ => lookup_snoc _ _ _ _ hn⟩
    py_run [hE, store_run h2]

/-- A property that is computed from attributes, in general. -/
theorem sim_attrs {n : Nat} {cls p m : String} {cd : ClassDef} {E : Expr} {f : c.Attrs → Except PyErr PyVal}
    (hc : library.class cls = some cd) (hm : "_m_" ++ p = m) (hp : cd.properties.lookup p = some (lazyProperty m [.setattr (.name "self") m E]))
    (hmm : m ∈ memos) (hml : m ∉ links) (hp0 : p ∉ links ∧ p ∉ memos) (hcls : ∀ x : c.Attrs, ∃ vs, c.view x = .struct cls vs)
    (hp1 : ∀ x : c.Attrs, ∀ vs, c.view x = .struct cls vs → vs.lookup p = none)
    (hf : ∀ x v, f x = .ok v → IsPlain v)
    (hE : ∀ {σ : State} {o : PyObj c.Attrs} {io : Stream}, Holds σ r k c o io →
      (eval library (calls library n) [("self", .obj r)] E).run σ = match f o.attrs with | .ok v => .ok (.pv v) σ | .error e => .raise e σ)
    (h : Holds σ r k c o io) : Simulates σ r k c (access library (n + 1) r p σ) (property p (fromAttrs f) o io) :=
  sim_property hcls hp0 hp1 hm hmm hml hc hp (fun h hn => body_attrs hmm hf hE h hn) h

theorem int_plain (i : Int) : IsPlain (.int i) := ⟨by simp, by simp⟩
theorem bool_plain (i : Bool) : IsPlain (.bool i) := ⟨by simp, by simp⟩
theorem str_plain (i : PyStr) : IsPlain (.str i) := ⟨by simp, by simp⟩
theorem bytes_plain (i : Bytes) : IsPlain (.bytes i) := ⟨by simp, by simp⟩
theorem enum_plain (cls : String) {E : Type} [PyEnum E] (e : EnumVal E) : IsPlain (EnumVal.toPy cls e) := by
  cases e <;> exact ⟨by simp [EnumVal.toPy], by simp [EnumVal.toPy]⟩

end Dmr.Py
