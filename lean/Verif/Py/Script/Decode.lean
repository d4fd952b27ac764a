import Verif.Py.Script.Pretty
import Verif.Py.Table
import Verif.Py.PropertyData
import Verif.Py.PropertyAttrs
/-
What the tools ask of the decoders.
-/

set_option autoImplicit false

namespace Dmr.Script

open Py (Shows ShowsItems ShowsAttrs Distinct library Obj Val State)

/-- `kaitai.from_bytes(b)`. -/
def fromBytesRun (n : Nat) (name : String) (b : Bytes) : Py.M V := do
  let k ← Py.open_ b
  return lift (← (Py.calls library n).construct name [.io k])

/-- The constructor of the class leads to what the model says. -/
def Decodes (name : String) (R : Py.Reader) : Prop :=
  ∀ (n : Nat), 13 ≤ n → ∀ (H : List Obj) (S : List Stream) (b : Bytes),
    ((Py.calls library n).construct name [.io S.length]).run ⟨H, S ++ [Stream.new b]⟩ =
      Py.after R.read (Stream.new b) (fun e s' => .raise e ⟨H, S ++ [s']⟩)
        (fun x s' => .ok (.obj H.length) ⟨H ++ Py.placeObj (.io S.length) (.pv .none) (.obj H.length) H.length (R.toPy x), S ++ [s']⟩)

theorem set_last (S : List Stream) (a b : Stream) : (S ++ [a]).set S.length b = S ++ [b] := by
  simp

theorem decodes {name : String} (R : Py.Reader) (d : Nat) (hd : d + 1 ≤ 13) {cd : Py.ClassDef}
    (hc : library.class name = some cd) (hi : cd.methods.lookup "__init__" = some Py.init)
    (hb : ∀ (m : Nat) (H : List Obj) (S : List Stream) (k : Nat), k < S.length → ∀ (b : Bytes),
      ((Py.calls library (m + (d + 1))).construct name [.io k, .pv .none, .pv .none]).run ⟨H, S.set k (Stream.new b)⟩ =
        Py.after R.read (Stream.new b) (fun e s' => .raise e ⟨H, S.set k s'⟩) (Py.built R.toPy k (.pv .none) (.pv .none) H S)) : Decodes name R := by
  intro n hn H S b
  obtain ⟨m, rfl⟩ : ∃ m, n = m + (d + 1) := ⟨n - (d + 1), by omega⟩
  have h := hb m H (S ++ [Stream.new b]) S.length (by simp) b
  rw [← Nat.add_assoc, ← Py.construct_short _ _ _ cd hc hi, set_last] at h
  rw [← Nat.add_assoc, h, show Py.built R.toPy S.length (.pv .none) (.pv .none) H (S ++ [Stream.new b]) = fun x s' =>
    .ok (.obj H.length) ⟨H ++ Py.placeObj (.io S.length) (.pv .none) (.obj H.length) H.length (R.toPy x), (S ++ [Stream.new b]).set S.length s'⟩ from rfl]
  simp only [set_last]

/-- `from_bytes` with the memory `σ` in use. -/
theorem fromBytes_ok {name : String} {R : Py.Reader} (h : Decodes name R) {b : Bytes} {x : R.Obj} {s : Stream} (hr : R.read (Stream.new b) = (.ok x, s))
    (n : Nat) (hn : 13 ≤ n) (σ : State) : (fromBytesRun n name b).run σ =
      .ok (.obj σ.heap.length) ⟨σ.heap ++ Py.placeObj (.io σ.streams.length) (.pv .none) (.obj σ.heap.length) σ.heap.length (R.toPy x), σ.streams ++ [s]⟩ := by
  unfold fromBytesRun
  rw [Py.run_bind]
  show (((Py.calls library n).construct name [.io σ.streams.length] >>= fun v => pure (lift v)) : Py.M V).run ⟨σ.heap, σ.streams ++ [Stream.new b]⟩ = _
  rw [Py.run_bind, h n hn]
  unfold Py.after
  rw [hr]
  rfl

theorem fromBytes_error {name : String} {R : Py.Reader} (h : Decodes name R) {b : Bytes} {e : PyErr} {s : Stream} (hr : R.read (Stream.new b) = (.error e, s))
    (n : Nat) (hn : 13 ≤ n) (σ : State) : (fromBytesRun n name b).run σ = .raise e ⟨σ.heap, σ.streams ++ [s]⟩ := by
  unfold fromBytesRun
  rw [Py.run_bind]
  show (((Py.calls library n).construct name [.io σ.streams.length] >>= fun v => pure (lift v)) : Py.M V).run ⟨σ.heap, σ.streams ++ [Stream.new b]⟩ = _
  rw [Py.run_bind, h n hn]
  unfold Py.after
  rw [hr]
  rfl

theorem fromBytes_distinct (n : Nat) (name : String) (b : Bytes) : Py.Keeps (fromBytesRun n name b) :=
  Py.keeps_bind (Py.keeps_open _) fun _ => Py.keeps_bind ((Py.calls_keep _ _).construct _ _) fun _ => Py.keeps_pure _

/-! ### Plain attributes -/

/-- Neither an object nor a list, or not looked at. -/
def Flat (vs : List (String × PyVal)) : Prop := ∀ a ∈ vs, a.1 ∈ Py.links ∨ Py.IsPlain a.2

/-- Then the rest of the memory does not matter. -/
theorem flat_shows {h h' : List Obj} : ∀ {attrs : List (String × Val)} {vs : List (String × PyVal)}, ShowsAttrs h attrs vs → Flat vs → ShowsAttrs h' attrs vs
  | [], _, .nil, _ => .nil
  | _ :: _, _, .link l es, f => .link l (flat_shows es fun a ha => f a (List.mem_cons_of_mem _ ha))
  | _ :: _, _, .cons l e es, f => by
    refine .cons l ?_ (flat_shows es fun a ha => f a (List.mem_cons_of_mem _ ha))
    rcases f _ (List.mem_cons_self ..) with hl | hp
    · exact absurd hl l
    · rw [e.reads.eq_plain hp]
      exact .plain _ hp.1 hp.2

theorem shows_snoc {h : List Obj} {x : String} {v : PyVal} (hx : x ∉ Py.links) (hv : Py.IsPlain v) :
    ∀ {attrs : List (String × Val)} {vs : List (String × PyVal)}, ShowsAttrs h attrs vs → ShowsAttrs h (attrs ++ [(x, .pv v)]) (vs ++ [(x, v)])
  | [], _, .nil => .cons hx (.plain v hv.1 hv.2) .nil
  | _ :: _, _, .link l es => .link l (shows_snoc hx hv es)
  | _ :: _, _, .cons l e es => .cons l e (shows_snoc hx hv es)

theorem flat_snoc {x : String} {v : PyVal} (hv : Py.IsPlain v) {vs : List (String × PyVal)} (f : Flat vs) : Flat (vs ++ [(x, v)]) := by
  intro a ha
  rcases List.mem_append.1 ha with ha | ha
  · exact f a ha
  · rw [List.mem_singleton] at ha; subst ha; exact .inr hv

theorem flat_lookup {h : List Obj} {attrs : List (String × Val)} {vs : List (String × PyVal)} (e : ShowsAttrs h attrs vs) {x : String} (hx : x ∉ Py.links) {v : PyVal}
    (hv : vs.lookup x = some v) (hp : Py.IsPlain v) : attrs.lookup x = some (.pv v) := by
  have := Py.Shows.attrs_like e x hx
  rw [hv] at this
  obtain ⟨w, hw, hr⟩ := this.some
  rw [hw, hr.eq_plain hp]

theorem absent {h : List Obj} {attrs : List (String × Val)} {vs : List (String × PyVal)} (e : ShowsAttrs h attrs vs) {x : String} (hx : x ∉ Py.links)
    (hv : vs.lookup x = none) : attrs.lookup x = none := by
  have := Py.Shows.attrs_like e x hx
  rw [hv] at this
  exact this.none

theorem upsert_absent (x : String) (v : Val) : ∀ l : List (String × Val), l.lookup x = none → Py.upsert x v l = l ++ [(x, v)]
  | [], _ => rfl
  | (y, w) :: l, h => by
    rw [Py.lookup_cons] at h
    split at h
    · cases h
    · rename_i hn
      rw [Py.upsert, if_neg hn, upsert_absent x v l h]; rfl

/-- The first use of a property that is computed from attributes. -/
theorem access_first {n : Nat} {σ : State} {r : Nat} {cls p m : String} {cd : Py.ClassDef} {E : Py.Expr} {attrs : List (String × Val)} {v : PyVal}
    (hc : library.class cls = some cd) (hp : cd.properties.lookup p = some (Py.lazyProperty m [.setattr (.name "self") m E]))
    (ho : σ.heap[r]? = some ⟨cls, attrs⟩) (h1 : attrs.lookup p = none) (h2 : attrs.lookup m = none)
    (hE : (Py.eval library (Py.calls library n) [("self", .obj r)] E).run σ = .ok (.pv v) σ) :
    (Py.getattr (Py.calls library (n + 1)) (.obj r) p).run σ =
      .ok (.pv v) ⟨σ.heap.set r ⟨cls, attrs ++ [(m, .pv v)]⟩, σ.streams⟩ := by
  have hr := (List.getElem?_eq_some_iff.1 ho).1
  rw [Py.getattr_property ho h1]
  have hpp : library.property cls p = some (Py.lazyProperty m [.setattr (.name "self") m E]) := by
    unfold Py.Program.property; rw [hc]; exact hp
  have e1 := Py.hasattr_run (P := library) (C := Py.calls library n) (m := m) (env := [("self", .obj r)]) (he := rfl) ho
  have e2 := Py.getattr3_run (P := library) (C := Py.calls library n) (m := m) (env := [("self", .obj r)]) (he := rfl)
    (σ := ⟨σ.heap.set r ⟨cls, attrs ++ [(m, .pv v)]⟩, σ.streams⟩) (cls := cls) (attrs := attrs ++ [(m, .pv v)]) (r := r) (by simp [hr])
  rw [h2] at e1
  have h3 : (attrs ++ [(m, Val.pv v)]).lookup m = some (.pv v) := by
    rw [Py.lookup_snoc _ _ _ _ h2, if_pos rfl]
  rw [h3] at e2
  have hself : Py.var [("self", Val.obj r)] "self" = pure (.obj r) := rfl
  have hrun : ((Py.calls library (n + 1)).property r p).run σ =
      ((Py.lazyProperty m [.setattr (.name "self") m E]).call library (Py.calls library n) [.obj r]).run σ := by
    show (Py.fetch r >>= _ : Py.M Val).run σ = _
    rw [Py.run_bind, Py.fetch_run ho, Py.bind_ok]
    simp only [hpp]
  have e3 : (Py.exec library (Py.calls library n) (.setattr (.name "self") m E) [("self", .obj r)]).run σ =
      .ok (.next [("self", .obj r)]) ⟨σ.heap.set r ⟨cls, attrs ++ [(m, .pv v)]⟩, σ.streams⟩ := by
    have := Py.store_run (x := m) (w := .pv v) ho
    rw [upsert_absent _ _ _ h2] at this
    py_run [hE, this]
  rw [hrun]
  unfold Py.Function.call Py.lazyProperty
  show Py.Out.bind ((Py.execs library (Py.calls library n) (.if_ (.call (.global "hasattr") [.name "self", .str m])
    [.return_ (.attr (.name "self") m)] [] :: (.setattr (.name "self") m E :: [.return_ (.call (.global "getattr") [.name "self", .str m, .none])])) [("self", .obj r)]).run σ) _ = _
  rw [Py.execs_cons, Py.run_bind, Py.exec_if, Py.run_bind, e1, Py.bind_ok]
  have hrun2 : (if Py.truthy (.pv (.bool (none : Option Val).isSome)) = true then Py.execs library (Py.calls library n) [.return_ (.attr (.name "self") m)] [("self", .obj r)]
      else Py.execs library (Py.calls library n) [] [("self", .obj r)]).run σ = .ok (.next [("self", .obj r)]) σ := by
    rw [if_neg (by simp [Py.truthy]), Py.execs_nil]; rfl
  rw [hrun2, Py.bind_ok, Py.andThen_next, Py.execs_cons, Py.run_bind, e3, Py.bind_ok, Py.andThen_next, Py.execs_cons, Py.run_bind, Py.exec_return, Py.run_bind, e2]
  rfl

end Dmr.Script
