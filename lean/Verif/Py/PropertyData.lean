import Verif.Py.PropertyStreams
import Verif.Py.Regular
/-
`DmrDataHeader.data`, which opens a second stream and decodes an object from it.
-/

set_option autoImplicit false

namespace Dmr.Py

open Graph

variable {c : LazyClass} {o : PyObj c.Attrs} {σ τ : State} {r k : Nat} {io : Stream}

theorem Shows.reads {h : List Obj} {w : Val} {v : PyVal} (e : Shows h w v) : Reads h w v :=
  Shows.rec (motive_1 := fun w v _ => Reads h w v) (motive_2 := fun xs vs _ => ReadsItems h xs vs)
    (motive_3 := fun attrs vs _ => ∀ x, x ∉ links → Like h (attrs.lookup x) (vs.lookup x))
    (fun v a b => .plain v a b) (fun _ ih => .list ih)
    (fun {r cls attrs vs} at_ _ ih => .object (fun x => (attrs.lookup x).getD (.pv .none)) at_
      (fun x hl _ => by
        have := ih x hl
        cases h1 : attrs.lookup x <;> cases h2 : vs.lookup x <;> simp_all [Like])
      (fun x v hl _ hv => by
        have := ih x hl
        rw [hv] at this
        obtain ⟨w, hw, hr⟩ := this.some
        rw [hw]
        exact hr))
    .nil (fun _ _ ih1 ih2 => .cons ih1 ih2)
    (fun _ _ => trivial)
    (fun {name x v xs vs} l _ ih y hy => by
      rw [lookup_cons, lookup_cons, if_neg (fun (e : y = name) => hy (e ▸ l)), if_neg (fun (e : y = name) => hy (e ▸ l))]
      exact ih y hy)
    (fun {name x v xs vs} l _ _ ih1 ih2 y hy => by
      rw [lookup_cons, lookup_cons]
      by_cases e : y = name
      · rw [if_pos e, if_pos e]; exact ih1
      · rw [if_neg e, if_neg e]; exact ih2 y hy)
    e

theorem Shows.attrs_like {h : List Obj} {attrs : List (String × Val)} {vs : List (String × PyVal)} (e : ShowsAttrs h attrs vs) (x : String) (hx : x ∉ links) :
    Like h (attrs.lookup x) (vs.lookup x) := by
  induction attrs generalizing vs with
  | nil => cases e; trivial
  | cons a attrs ih =>
    cases e with
    | @link name _ _ _ _ l es =>
      rw [lookup_cons, lookup_cons, if_neg (fun (e : x = name) => hx (e ▸ l)), if_neg (fun (e : x = name) => hx (e ▸ l))]
      exact ih es
    | cons l e es =>
      rw [lookup_cons, lookup_cons]
      split
      · exact e.reads
      · exact ih es

/-- An object that has just been made. -/
theorem placeObj_reads (io parent root : Val) (H : List Obj) (cls : String) (l : List (String × PyVal)) :
    Reads (H ++ placeObj io parent root H.length (.struct cls l)) (.obj H.length) (.struct cls l) := by
  refine Shows.reads (.object (by rw [placeObj_struct]; simp)
    (placeAttrs_shows io parent root H.length _ (H ++ [⟨cls, (placeAttrs io parent root H.length (H.length + 1) l).1⟩]) [] (H.length + 1) (by simp) l (by rw [placeObj_struct]; simp)))

abbrev dataHeaderClass : LazyClass := ⟨"DmrDataHeader", _, Etsi.DmrDataHeader.read, Etsi.DmrDataHeader.toPy, Etsi.DmrDataHeader.getters⟩

/-- `self._raw__m_data = io.read_bytes(12); _io__raw__m_data = KaitaiStream(BytesIO(self._raw__m_data)); self._m_data = cls(_io__raw__m_data, self, self._root)` -/
def dataStmts (cls : String) : List Stmt :=
  [.setattr (.name "self") "_raw__m_data" (.call (.attr (.name "io") "read_bytes") [.int 12]),
   .assign "_io__raw__m_data" (.call (.global "KaitaiStream") [.call (.global "BytesIO") [.attr (.name "self") "_raw__m_data"]]),
   .setattr (.name "self") "_m_data" (.call (.cls cls) [.name "_io__raw__m_data", .name "self", .attr (.name "self") "_root"])]

/-- What the statements of `data` lead to. -/
def DataSim {α : Type} (σ : State) (r k : Nat) (o : PyObj dataHeaderClass.Attrs) (io : Stream) (env : Env) (rd : Rd α) (toPy : α → PyVal) (out : Out Flow) : Prop :=
  ∃ τ, Rest r k σ τ ∧
    match readBytes 12 io with
    | (.error e, io') => out = .raise e τ ∧ Holds τ r k dataHeaderClass o io'
    | (.ok raw, io') =>
      match Dmr.fromBytes rd raw with
      | .error e => out = .raise e τ ∧ Holds τ r k dataHeaderClass { o with caches := setAttr o.caches "_raw__m_data" (.bytes raw) } io'
      | .ok x => ∃ j, out = .ok (.next (env ++ [("_io__raw__m_data", .io j)])) τ ∧
        Holds τ r k dataHeaderClass { o with caches := setAttr o.caches "_raw__m_data" (.bytes raw) ++ [("_m_data", toPy x)] } io'

theorem lookup_setAttr (x y : String) (v : PyVal) (l : List (String × PyVal)) : (setAttr l x v).lookup y = if y = x then some v else l.lookup y := by
  unfold setAttr
  by_cases hx : (l.lookup x).isSome
  · rw [if_pos hx]
    induction l with
    | nil => cases hx
    | cons a l ih =>
      obtain ⟨z, w⟩ := a
      rw [List.map_cons, lookup_cons]
      by_cases e : z = x
      · subst e
        dsimp only
        rw [if_pos rfl, lookup_cons]
        by_cases e : y = z
        · rw [if_pos e, if_pos e]
        · rw [if_neg e, if_neg e, if_neg e]
          clear ih hx
          induction l with
          | nil => rfl
          | cons b l ih =>
            obtain ⟨u, w⟩ := b
            rw [List.map_cons, lookup_cons]
            by_cases e' : u = z
            · subst e'
              dsimp only
              rw [if_pos rfl, lookup_cons, if_neg e, if_neg e, ih]
            · dsimp only
              rw [if_neg e', lookup_cons, ih]
      · rw [lookup_cons, if_neg (fun h => e h.symm)] at hx
        dsimp only
        rw [if_neg e, lookup_cons, ih hx]
        by_cases e' : y = z
        · rw [if_pos e', if_neg (fun h => e (e' ▸ h)), if_pos e']
        · rw [if_neg e', if_neg e']
  · rw [if_neg hx]
    exact lookup_snoc _ _ _ _ (by cases h : l.lookup x with | none => rfl | some v => rw [h] at hx; simp at hx)

theorem data_branch {α : Type} {n : Nat} (hn : 3 ≤ n) {cls : String} {rd : Rd α} {toPy : α → PyVal} {o : PyObj dataHeaderClass.Attrs} {p on : Val}
    (hpy : ∀ x, ∃ cls l, toPy x = .struct cls l)
    (hb : ∀ (n : Nat) (H : List Obj) (S : List Stream) (k : Nat), k < S.length → ∀ (s : Stream) (parent root : Val),
      ((calls library (n + 3)).construct cls [.io k, parent, root]).run ⟨H, S.set k s⟩ =
        after rd s (fun e s' => .raise e ⟨H, S.set k s'⟩) (built toPy k parent root H S))
    (h : Holds σ r k dataHeaderClass o io) (hm : o.caches.lookup "_m_data" = none) :
    DataSim σ r k o io [("self", .obj r), ("io", .io k), ("_pos", p), ("_on", on)] rd toPy
      ((execs library (calls library n) (dataStmts cls) [("self", .obj r), ("io", .io k), ("_pos", p), ("_on", on)]).run σ) := by
  obtain ⟨n, rfl⟩ : ∃ j, n = j + 3 := ⟨n - 3, by omega⟩
  obtain ⟨attrs, h2, hio, hroot, ho, hp, hq⟩ := h.open (c := dataHeaderClass) rfl
  have hroot := hroot (by decide)
  have F1 : (eval library (calls library (n + 3)) [("self", .obj r), ("io", .io k), ("_pos", p), ("_on", on)] (.call (.attr (.name "io") "read_bytes") [.int 12])).run σ =
      after (readBytes 12) io (fun e s => .raise e ⟨σ.heap, σ.streams.set k s⟩) (fun v s => .ok (.pv (.bytes v)) ⟨σ.heap, σ.streams.set k s⟩) := by
    py_run [onStream_run _ h.stream]
  unfold DataSim
  rcases e1 : readBytes 12 io with ⟨e | raw, io'⟩
  · refine ⟨_, Rest.seek io', ?_, h.seek io'⟩
    rw [dataStmts, execs_cons, run_bind, exec_setattr, run_bind, F1, after, e1]
    rfl
  have hs := h.seek io'
  have hst := hs.store (x := "_raw__m_data") (w := .pv (.bytes raw)) (v := .bytes raw) h2 (by decide) (.plain _ (bytes_plain _).1 (bytes_plain _).2)
    (o' := { o with caches := setAttr o.caches "_raw__m_data" (.bytes raw) }) rfl fun y _ => lookup_setAttr _ _ _ _
  have hr1 : Rest r k σ _ := (Rest.seek io').trans (Rest.store (k := k) (x := "_raw__m_data") (.pv (.bytes raw)) (σ := ⟨σ.heap, σ.streams.set k io'⟩) h2 (by decide))
  have hm' : ({ o with caches := setAttr o.caches "_raw__m_data" (.bytes raw) } : PyObj dataHeaderClass.Attrs).caches.lookup "_m_data" = none := by
    rw [lookup_setAttr, if_neg (by decide)]; exact hm
  generalize ho' : ({ o with caches := setAttr o.caches "_raw__m_data" (.bytes raw) } : PyObj dataHeaderClass.Attrs) = o' at hst hm'
  have hs1 := store_run (σ := ⟨σ.heap, σ.streams.set k io'⟩) (x := "_raw__m_data") (w := .pv (.bytes raw)) h2
  have hraw : (upsert "_raw__m_data" (.pv (.bytes raw)) attrs).lookup "_raw__m_data" = some (.pv (.bytes raw)) := by
    rw [lookup_upsert, if_pos rfl]
  have hro : (upsert "_raw__m_data" (.pv (.bytes raw)) attrs).lookup "_root" = some (.obj r) := by
    rw [lookup_upsert, if_neg (by decide)]; exact hroot
  have hlen : r < σ.heap.length := lt_of_getElem? h2
  generalize hA : upsert "_raw__m_data" (.pv (.bytes raw)) attrs = A at *
  have hH2 : (σ.heap.set r ⟨"Etsi.DmrDataHeader", A⟩)[r]? = some ⟨"Etsi.DmrDataHeader", A⟩ := List.getElem?_set_self hlen
  generalize σ.heap.set r ⟨"Etsi.DmrDataHeader", A⟩ = H at *
  generalize hS : σ.streams.set k io' = S at *
  have R1 : (execs library (calls library (n + 3)) (dataStmts cls) [("self", .obj r), ("io", .io k), ("_pos", p), ("_on", on)]).run σ =
      (execs library (calls library (n + 3)) (dataStmts cls).tail [("self", .obj r), ("io", .io k), ("_pos", p), ("_on", on)]).run ⟨H, S⟩ := by
    rw [dataStmts, execs_cons, run_bind, exec_setattr, run_bind, F1, after, e1]
    dsimp only
    rw [hS, bind_ok]
    py_run [hs1, List.tail_cons]
  have R2 : (execs library (calls library (n + 3)) (dataStmts cls).tail [("self", .obj r), ("io", .io k), ("_pos", p), ("_on", on)]).run ⟨H, S⟩ =
      (execs library (calls library (n + 3)) (dataStmts cls).tail.tail [("self", .obj r), ("io", .io k), ("_pos", p), ("_on", on), ("_io__raw__m_data", .io S.length)]).run
        ⟨H, S ++ [Stream.new raw]⟩ := by
    rw [dataStmts, List.tail_cons, execs_cons, run_bind]
    have : (exec library (calls library (n + 3)) (.assign "_io__raw__m_data" (.call (.global "KaitaiStream") [.call (.global "BytesIO") [.attr (.name "self") "_raw__m_data"]]))
        [("self", .obj r), ("io", .io k), ("_pos", p), ("_on", on)]).run ⟨H, S⟩ =
        .ok (.next [("self", .obj r), ("io", .io k), ("_pos", p), ("_on", on), ("_io__raw__m_data", .io S.length)]) ⟨H, S ++ [Stream.new raw]⟩ := by
      have hf : (fetch r).run ⟨H, S⟩ = .ok ⟨"Etsi.DmrDataHeader", A⟩ ⟨H, S⟩ := fetch_run hH2
      py_run [hf, hraw, builtin]
      rfl
    rw [this]
    rfl
  have R3 : (execs library (calls library (n + 3)) (dataStmts cls).tail.tail [("self", .obj r), ("io", .io k), ("_pos", p), ("_on", on), ("_io__raw__m_data", .io S.length)]).run
        ⟨H, S ++ [Stream.new raw]⟩ =
      after rd (Stream.new raw) (fun e s' => .raise e ⟨H, S ++ [s']⟩) (fun x s' => .ok (.next [("self", .obj r), ("io", .io k), ("_pos", p), ("_on", on), ("_io__raw__m_data", .io S.length)])
        ⟨(H ++ placeObj (.io S.length) (.obj r) (.obj r) H.length (toPy x)).set r ⟨"Etsi.DmrDataHeader", upsert "_m_data" (.obj H.length) A⟩, S ++ [s']⟩) := by
    have hf : (fetch r).run ⟨H, S ++ [Stream.new raw]⟩ = .ok ⟨"Etsi.DmrDataHeader", A⟩ ⟨H, S ++ [Stream.new raw]⟩ := fetch_run hH2
    have hc := hb n H (S ++ [Stream.new raw]) S.length (by simp) (Stream.new raw) (.obj r) (.obj r)
    simp only [List.set_append_right _ _ (Nat.le_refl _), Nat.sub_self, List.set_cons_zero] at hc
    rw [dataStmts, List.tail_cons, List.tail_cons]
    py_run [hf, hro, hc]
    refine after_congr_ok fun x s' _ => ?_
    have hH3 : (H ++ placeObj (.io S.length) (.obj r) (.obj r) H.length (toPy x))[r]? = some ⟨"Etsi.DmrDataHeader", A⟩ := by
      rw [List.getElem?_append_left (lt_of_getElem? hH2)]; exact hH2
    have hset : (S ++ [Stream.new raw]).set S.length s' = S ++ [s'] := by
      rw [List.set_append_right _ _ (Nat.le_refl _), Nat.sub_self]; rfl
    rw [hset]
    have := store_run (σ := ⟨H ++ placeObj (.io S.length) (.obj r) (.obj r) H.length (toPy x), S ++ [s']⟩) (x := "_m_data") (w := .obj H.length) hH3
    rw [this]
    rfl
  rw [R1, R2, R3]
  unfold after
  dsimp only
  rcases e2 : rd (Stream.new raw) with ⟨e | x, s'⟩
  · have : Dmr.fromBytes rd raw = .error e := by unfold Dmr.fromBytes; rw [e2]
    rw [this]
    have hg := hst.grow [] [s']
    rw [List.append_nil] at hg
    refine ⟨⟨H, S ++ [s']⟩, hr1.trans ?_, rfl, ho' ▸ hg⟩
    have := Rest.grow (r := r) (k := k) (σ := ⟨H, S⟩) [] [s']
    rwa [List.append_nil] at this
  · have : Dmr.fromBytes rd raw = .ok x := by unfold Dmr.fromBytes; rw [e2]
    rw [this]
    have hg := hst.grow (placeObj (.io S.length) (.obj r) (.obj r) H.length (toPy x)) [s']
    obtain ⟨cls1, l, hl⟩ := hpy x
    have hread : Reads (H ++ placeObj (.io S.length) (.obj r) (.obj r) H.length (toPy x)) (.obj H.length) (toPy x) := by
      rw [hl]; exact placeObj_reads _ _ _ _ _ _
    have hH3 : (H ++ placeObj (.io S.length) (.obj r) (.obj r) H.length (toPy x))[r]? = some ⟨"Etsi.DmrDataHeader", A⟩ := by
      rw [List.getElem?_append_left (lt_of_getElem? hH2)]; exact hH2
    have hfin := hg.store (x := "_m_data") hH3 (by decide) hread (o' := { o' with caches := o'.caches ++ [("_m_data", toPy x)] }) rfl fun y _ => lookup_snoc _ _ _ _ hm'
    refine ⟨_, (hr1.trans (Rest.grow _ [s'])).trans (Rest.store (k := k) (x := "_m_data") (.obj H.length) hH3 (by decide)), S.length, rfl, ?_⟩
    rw [← ho'] at hfin
    exact hfin

/-- Which class the object in `data` is of. -/
def dataChain : List Stmt :=
  [.if_ (.cmp .eq (.name "_on") (.attr (.enum "Etsi.DmrDataHeader.DataPacketFormats") "proprietary")) (dataStmts "Etsi.DmrDataHeader.DataHeaderProprietary")
    [.if_ (.cmp .eq (.name "_on") (.attr (.enum "Etsi.DmrDataHeader.DataPacketFormats") "short_data_defined")) (dataStmts "Etsi.DmrDataHeader.DataHeaderShortDefined")
      [.if_ (.cmp .eq (.name "_on") (.attr (.enum "Etsi.DmrDataHeader.DataPacketFormats") "data_packet_unconfirmed")) (dataStmts "Etsi.DmrDataHeader.DataHeaderUnconfirmed")
        [.if_ (.cmp .eq (.name "_on") (.attr (.enum "Etsi.DmrDataHeader.DataPacketFormats") "data_packet_confirmed")) (dataStmts "Etsi.DmrDataHeader.DataHeaderConfirmed")
          [.if_ (.cmp .eq (.name "_on") (.attr (.enum "Etsi.DmrDataHeader.DataPacketFormats") "unified_data_transport")) (dataStmts "Etsi.DmrDataHeader.DataHeaderUdt")
            [.if_ (.cmp .eq (.name "_on") (.attr (.enum "Etsi.DmrDataHeader.DataPacketFormats") "short_data_raw_or_status_or_precoded")) (dataStmts "Etsi.DmrDataHeader.DataHeaderShortStatusPrecoded")
              [.if_ (.cmp .eq (.name "_on") (.attr (.enum "Etsi.DmrDataHeader.DataPacketFormats") "response_packet")) (dataStmts "Etsi.DmrDataHeader.DataHeaderResponse")
                (dataStmts "Etsi.DmrDataHeader.DataHeaderUndefined")]]]]]]]

theorem end_next {C : Calls} (out : Out Flow) : (out.bind fun a σ' => (andThen (execs library C []) a).run σ') = out := by
  cases out with
  | raise e τ => rfl
  | ok f τ => cases f <;> first | rfl | (rw [bind_ok, andThen_next, execs_nil]; rfl)

theorem execs_one {C : Calls} (s : Stmt) (env : Env) (σ : State) : (execs library C [s] env).run σ = (exec library C s env).run σ := by
  rw [execs_cons, run_bind]
  cases (exec library C s env).run σ with
  | raise e τ => rfl
  | ok f τ => cases f <;> first | rfl | (rw [bind_ok, andThen_next, execs_nil]; rfl)

theorem data_chain {C : Calls} {p : Val} {env : Env} (on : EnumVal Etsi.DmrDataHeader.DataPacketFormats)
    (he : env = [("self", .obj r), ("io", .io k), ("_pos", p), ("_on", .pv (EnumVal.toPy "DataPacketFormats" on))]) :
    (execs library C dataChain env).run σ =
      if on = .known .proprietary then (execs library C (dataStmts "Etsi.DmrDataHeader.DataHeaderProprietary") env).run σ
      else if on = .known .short_data_defined then (execs library C (dataStmts "Etsi.DmrDataHeader.DataHeaderShortDefined") env).run σ
      else if on = .known .data_packet_unconfirmed then (execs library C (dataStmts "Etsi.DmrDataHeader.DataHeaderUnconfirmed") env).run σ
      else if on = .known .data_packet_confirmed then (execs library C (dataStmts "Etsi.DmrDataHeader.DataHeaderConfirmed") env).run σ
      else if on = .known .unified_data_transport then (execs library C (dataStmts "Etsi.DmrDataHeader.DataHeaderUdt") env).run σ
      else if on = .known .short_data_raw_or_status_or_precoded then (execs library C (dataStmts "Etsi.DmrDataHeader.DataHeaderShortStatusPrecoded") env).run σ
      else if on = .known .response_packet then (execs library C (dataStmts "Etsi.DmrDataHeader.DataHeaderResponse") env).run σ
      else (execs library C (dataStmts "Etsi.DmrDataHeader.DataHeaderUndefined") env).run σ := by
  have hv : var env "_on" = pure (.pv (EnumVal.toPy "DataPacketFormats" on)) := by rw [he]; rfl
  unfold dataChain
  simp only [execs_one]
  py_run [hv, end_next]

theorem DataSim.map {α β : Type} {o : PyObj dataHeaderClass.Attrs} {env : Env} {rd : Rd α} {toPy : β → PyVal} {out : Out Flow} (f : α → β)
    (h : DataSim σ r k o io env rd (fun x => toPy (f x)) out) : DataSim σ r k o io env (do let x ← rd; return f x) toPy out := by
  obtain ⟨τ, hr, h⟩ := h
  refine ⟨τ, hr, ?_⟩
  rcases hb : readBytes 12 io with ⟨e | raw, io'⟩
  · rw [hb] at h
    exact h
  · rw [hb] at h
    dsimp only at h ⊢
    have hf : Dmr.fromBytes (do let x ← rd; return f x : Rd β) raw = (Dmr.fromBytes rd raw).map f := by
      unfold Dmr.fromBytes
      show (Rd.bind rd _ (Stream.new raw)).1 = _
      unfold Rd.bind
      rcases rd (Stream.new raw) with ⟨_ | _, _⟩ <;> rfl
    rw [hf]
    cases hx : Dmr.fromBytes rd raw with
    | error e => rw [hx] at h; exact h
    | ok x => rw [hx] at h; exact h

theorem data_sim {n : Nat} (hn : 3 ≤ n) {o : PyObj dataHeaderClass.Attrs} {p : Val} (h : Holds σ r k dataHeaderClass o io) (hm : o.caches.lookup "_m_data" = none) :
    DataSim σ r k o io [("self", .obj r), ("io", .io k), ("_pos", p), ("_on", .pv (EnumVal.toPy "DataPacketFormats" o.attrs.data_packet_format))]
      (Etsi.DmrDataHeader.readDataBody o.attrs.data_packet_format) Etsi.DmrDataHeader.DataUnion.toPy
      ((execs library (calls library n) dataChain [("self", .obj r), ("io", .io k), ("_pos", p), ("_on", .pv (EnumVal.toPy "DataPacketFormats" o.attrs.data_packet_format))]).run σ) := by
  rw [data_chain o.attrs.data_packet_format rfl]
  unfold Etsi.DmrDataHeader.readDataBody
  repeat' split
  · exact DataSim.map (toPy := Etsi.DmrDataHeader.DataUnion.toPy) Etsi.DmrDataHeader.DataUnion.dataHeaderProprietary (data_branch hn (fun x => ⟨_, _, rfl⟩) ConformEtsi.DmrDataHeader_DataHeaderProprietary_builds h hm)
  · exact DataSim.map (toPy := Etsi.DmrDataHeader.DataUnion.toPy) Etsi.DmrDataHeader.DataUnion.dataHeaderShortDefined (data_branch hn (fun x => ⟨_, _, rfl⟩) ConformEtsi.DmrDataHeader_DataHeaderShortDefined_builds h hm)
  · exact DataSim.map (toPy := Etsi.DmrDataHeader.DataUnion.toPy) Etsi.DmrDataHeader.DataUnion.dataHeaderUnconfirmed (data_branch hn (fun x => ⟨_, _, rfl⟩) ConformEtsi.DmrDataHeader_DataHeaderUnconfirmed_builds h hm)
  · exact DataSim.map (toPy := Etsi.DmrDataHeader.DataUnion.toPy) Etsi.DmrDataHeader.DataUnion.dataHeaderConfirmed (data_branch hn (fun x => ⟨_, _, rfl⟩) ConformEtsi.DmrDataHeader_DataHeaderConfirmed_builds h hm)
  · exact DataSim.map (toPy := Etsi.DmrDataHeader.DataUnion.toPy) Etsi.DmrDataHeader.DataUnion.dataHeaderUdt (data_branch hn (fun x => ⟨_, _, rfl⟩) ConformEtsi.DmrDataHeader_DataHeaderUdt_builds h hm)
  · exact DataSim.map (toPy := Etsi.DmrDataHeader.DataUnion.toPy) Etsi.DmrDataHeader.DataUnion.dataHeaderShortStatusPrecoded (data_branch hn (fun x => ⟨_, _, rfl⟩) ConformEtsi.DmrDataHeader_DataHeaderShortStatusPrecoded_builds h hm)
  · exact DataSim.map (toPy := Etsi.DmrDataHeader.DataUnion.toPy) Etsi.DmrDataHeader.DataUnion.dataHeaderResponse (data_branch hn (fun x => ⟨_, _, rfl⟩) ConformEtsi.DmrDataHeader_DataHeaderResponse_builds h hm)
  · exact DataSim.map (toPy := Etsi.DmrDataHeader.DataUnion.toPy) Etsi.DmrDataHeader.DataUnion.dataHeaderUndefined (data_branch hn (fun x => ⟨_, _, rfl⟩) ConformEtsi.DmrDataHeader_DataHeaderUndefined_builds h hm)

theorem data_data : PropertySim dataHeaderClass "data" (property "data" fun o io =>
    match (do let pos ← posIo
              seekIo 0
              let raw ← readBytes 12
              return (pos, raw) : Rd (Nat × Bytes)) io with
    | (.error e, io) => (.error e, o, io)
    | (.ok (pos, raw), io) =>
      let o := { o with caches := setAttr o.caches "_raw__m_data" (.bytes raw) }
      match Dmr.fromBytes (Etsi.DmrDataHeader.readDataBody o.attrs.data_packet_format) raw with
      | .error e => (.error e, o, io)
      | .ok d => (.ok (some d.toPy), o, (seekIo pos io).2)) := by
  intro n hn σ r k o io h
  refine sim_property (m := "_m_data") (stmts := [.assign "io" (.attr (.attr (.name "self") "_root") "_io"), .assign "_pos" (.call (.attr (.name "io") "pos") []),
      .expr (.call (.attr (.name "io") "seek") [.int 0]), .assign "_on" (.attr (.name "self") "data_packet_format")] ++ (dataChain ++ [.expr (.call (.attr (.name "io") "seek") [.name "_pos"])]))
    (fun x => ⟨_, rfl⟩) (by decide) (by rintro x vs ⟨⟩; look_up) rfl (by decide) (by decide)
    ConformEtsi.DmrDataHeader_class rfl (fun {σ o io} h hm => ?_) h
  obtain ⟨attrs, h2, hio, hroot, ho, hp, hq⟩ := h.open (c := dataHeaderClass) rfl
  have hroot := hroot (by decide)
  have a1 := hp "data_packet_format" (EnumVal.toPy "DataPacketFormats" o.attrs.data_packet_format) (by decide) (by decide) (by look_up) (enum_plain _ _)
  have F : (execs library (calls library n) [.assign "io" (.attr (.attr (.name "self") "_root") "_io"), .assign "_pos" (.call (.attr (.name "io") "pos") []),
      .expr (.call (.attr (.name "io") "seek") [.int 0]), .assign "_on" (.attr (.name "self") "data_packet_format")] [("self", .obj r)]).run σ =
      .ok (.next [("self", .obj r), ("io", .io k), ("_pos", .pv (.int io.pos)), ("_on", .pv (EnumVal.toPy "DataPacketFormats" o.attrs.data_packet_format))])
        ⟨σ.heap, σ.streams.set k (seekIo 0 io).2⟩ := by
    have hset : (⟨σ.heap, σ.streams.set k io⟩ : State) = σ := by
      obtain ⟨hl, e⟩ := List.getElem?_eq_some_iff.1 h.stream
      rw [← e, List.set_getElem_self]
    have h2' : (⟨σ.heap, σ.streams.set k (seekIo 0 io).2⟩ : State).heap[r]? = some ⟨"Etsi.DmrDataHeader", attrs⟩ := h2
    have hpos : (onStream k posIo).run σ = .ok io.pos σ := by
      rw [onStream_run _ h.stream]
      show Out.ok _ (⟨σ.heap, σ.streams.set k io⟩ : State) = _
      rw [hset]
    have hseek : (onStream k (seekIo 0)).run σ = .ok () ⟨σ.heap, σ.streams.set k (seekIo 0 io).2⟩ := by
      rw [onStream_run _ h.stream]
      rfl
    py_run [fetch_run h2, hroot, hio, hpos, hseek, fetch_run h2', a1]
  rw [execs_append, run_bind, F, bind_ok, andThen_next, execs_append, run_bind]
  have hs := h.seek (seekIo 0 io).2
  have hd := data_sim (n := n) (p := .pv (.int io.pos)) (by omega) hs hm
  obtain ⟨τ, hr, hd⟩ := hd
  have hR := (Rest.seek (r := r) (k := k) (σ := σ) (seekIo 0 io).2).trans hr
  rcases hb : readBytes 12 (seekIo 0 io).2 with ⟨e | raw, io'⟩
  · rw [hb] at hd
    have hmod : (do let pos ← posIo; seekIo 0; let raw ← readBytes 12; return (pos, raw) : Rd (Nat × Bytes)) io = (.error e, io') := by
      show Rd.bind posIo _ io = _
      simp only [Rd.bind, posIo, Bind.bind]
      rw [show seekIo 0 io = (.ok (), (seekIo 0 io).2) from rfl]
      dsimp only
      rw [hb]
    rw [hmod]
    dsimp only at hd ⊢
    rw [hd.1]
    exact ⟨τ, hR, rfl, hd.2⟩
  · rw [hb] at hd
    have hmod : (do let pos ← posIo; seekIo 0; let raw ← readBytes 12; return (pos, raw) : Rd (Nat × Bytes)) io = (.ok (io.pos, raw), io') := by
      show Rd.bind posIo _ io = _
      simp only [Rd.bind, posIo, Bind.bind]
      rw [show seekIo 0 io = (.ok (), (seekIo 0 io).2) from rfl]
      dsimp only
      rw [hb]
      rfl
    rw [hmod]
    dsimp only at hd ⊢
    cases hx : Dmr.fromBytes (Etsi.DmrDataHeader.readDataBody o.attrs.data_packet_format) raw with
    | error e =>
      rw [hx] at hd
      dsimp only at hd ⊢
      rw [hd.1]
      exact ⟨τ, hR, rfl, hd.2⟩
    | ok d =>
      rw [hx] at hd
      dsimp only at hd ⊢
      obtain ⟨j, hd1, hd2⟩ := hd
      rw [hd1]
      refine ⟨_, hR.trans (Rest.seek (seekIo io.pos io').2), [("self", .obj r), ("io", .io k), ("_pos", .pv (.int io.pos)),
        ("_on", .pv (EnumVal.toPy "DataPacketFormats" o.attrs.data_packet_format)), ("_io__raw__m_data", .io j)], ?_, rfl, ?_, hd2.seek _⟩
      · rw [bind_ok, andThen_next, execs_one]
        py_run [onStream_run _ hd2.stream, List.cons_append, List.nil_append]
        rfl
      · rw [lookup_setAttr, if_neg (by decide)]; exact hm

end Dmr.Py
