import Verif.Py.PropertyAttrs
import Verif.LocalFrames
import Verif.Py.Conform.RealTimeTransportProtocol
import Verif.Py.Conform.TelemetryProtocol
import Verif.Py.Conform.LocationProtocol
import Verif.Py.Conform.Homebrew2015
import Verif.Py.Conform.Mmdvm2020
/-
The properties that are read from the stream.
-/

set_option autoImplicit false

namespace Dmr.Py

variable {c : LazyClass} {o : PyObj c.Attrs} {σ τ : State} {r k : Nat} {io : Stream}

/-- Evaluating `E` is reading `R` from the stream. -/
def Runs (C : Calls) (σ : State) (k : Nat) (io : Stream) (env : Env) (E : Expr) (R : Rd PyVal) : Prop :=
  (eval library C env E).run σ = after R io (fun e s => .raise e ⟨σ.heap, σ.streams.set k s⟩) (fun v s => .ok (.pv v) ⟨σ.heap, σ.streams.set k s⟩)

/-- `_pos = self._io.pos(); self._io.seek(Q); self.m = E; self._io.seek(_pos)` -/
def peekStmts (m : String) (Q E : Expr) : List Stmt :=
  [.assign "_pos" (.call (.attr (.attr (.name "self") "_io") "pos") []),
   .expr (.call (.attr (.attr (.name "self") "_io") "seek") [Q]),
   .setattr (.name "self") m E,
   .expr (.call (.attr (.attr (.name "self") "_io") "seek") [.name "_pos"])]

theorem body_peek {n : Nat} {m : String} {Q E : Expr} {sk : Rd Unit} {R : Rd PyVal} (hmm : m ∈ memos)
    (hR : ∀ s v s', R s = (.ok v, s') → IsPlain v)
    (hQ : ∀ {σ : State} {io : Stream} (p : Nat), Holds σ r k c o io → Runs (calls library n) σ k io [("self", .obj r), ("_pos", .pv (.int p))]
      (.call (.attr (.attr (.name "self") "_io") "seek") [Q]) (do sk; return .none))
    (hE : ∀ {σ : State} {io : Stream} (p : Nat), Holds σ r k c o io → Runs (calls library n) σ k io [("self", .obj r), ("_pos", .pv (.int p))] E R)
    (h : Holds σ r k c o io) (hn : o.caches.lookup m = none) :
    BodySim σ r k c m ((execs library (calls library n) (peekStmts m Q E) [("self", .obj r)]).run σ)
      (fromStream (fun _ => do let pos ← posIo; sk; let v ← R; seekIo pos; return some v) o io) := by
  obtain ⟨cls', vs, attrs, h1, h2, h3, h4, h5⟩ := h.object
  have hset : ∀ {σ : State} {io : Stream}, σ.streams[k]? = some io → (⟨σ.heap, σ.streams.set k io⟩ : State) = σ := fun {σ io} hs => by
    obtain ⟨hl, rfl⟩ := List.getElem?_eq_some_iff.1 hs
    rw [List.set_getElem_self]
  have F1 : (exec library (calls library n) (.assign "_pos" (.call (.attr (.attr (.name "self") "_io") "pos") [])) [("self", .obj r)]).run σ =
      .ok (.next [("self", .obj r), ("_pos", .pv (.int io.pos))]) σ := by
    py_run [fetch_run h2, h3, onStream_run _ h.stream]
    show Out.ok _ ⟨σ.heap, σ.streams.set k io⟩ = _
    rw [hset h.stream]
  have hQ1 := hQ io.pos h
  unfold Runs at hQ1
  rw [after_bind] at hQ1
  have F2 : (exec library (calls library n) (.expr (.call (.attr (.attr (.name "self") "_io") "seek") [Q])) [("self", .obj r), ("_pos", .pv (.int io.pos))]).run σ =
      after sk io (fun e s => .raise e ⟨σ.heap, σ.streams.set k s⟩)
        (fun _ s => .ok (.next [("self", .obj r), ("_pos", .pv (.int io.pos))]) ⟨σ.heap, σ.streams.set k s⟩) := by
    rw [exec_expr_attr _ _ _ _ _ _ _ (by decide), run_bind, hQ1]
    unfold after
    rcases sk io with ⟨_ | a, s1⟩ <;> rfl
  unfold fromStream peekStmts
  rw [execs_cons, run_bind, F1, bind_ok, andThen_next, execs_cons, run_bind, F2]
  unfold after
  rcases e1 : sk io with ⟨e | a, s1⟩
  · have : (do let pos ← posIo; sk; let v ← R; seekIo pos; return some v : Rd (Option PyVal)) io = (.error e, s1) := by
      show Rd.bind posIo _ io = _
      simp only [Rd.bind, posIo, Bind.bind, e1]
    dsimp only
    rw [this]
    exact ⟨_, Rest.seek s1, rfl, h.seek s1⟩
  have hs := h.seek s1
  have hE1 := hE io.pos hs
  unfold Runs at hE1
  rw [bind_ok, andThen_next, execs_cons, run_bind, exec_setattr, run_bind, hE1]
  unfold after
  rcases e2 : R s1 with ⟨e | v, s2⟩
  · have : (do let pos ← posIo; sk; let v ← R; seekIo pos; return some v : Rd (Option PyVal)) io = (.error e, s2) := by
      show Rd.bind posIo _ io = _
      simp only [Rd.bind, posIo, Bind.bind, e1, e2]
    dsimp only
    rw [this]
    exact ⟨_, (Rest.seek s1).trans (Rest.seek s2), rfl, hs.seek s2⟩
  have hp := hR _ _ _ e2
  have hm : (do let pos ← posIo; sk; let v ← R; seekIo pos; return some v : Rd (Option PyVal)) io = (.ok (some v), (seekIo io.pos s2).2) := by
    show Rd.bind posIo _ io = _
    simp only [Rd.bind, posIo, Bind.bind, e1, e2, seekIo, Pure.pure, Rd.pure]
  dsimp only
  rw [hm]
  have hs2 := hs.seek s2
  have hst := hs2.store (x := m) h2 hmm (.plain v hp.1 hp.2) (o' := { o with caches := o.caches ++ [(m, v)] }) rfl fun y _ => lookup_snoc _ _ _ _ hn
  have hr : Rest r k σ _ := ((Rest.seek s1).trans (Rest.seek s2)).trans (Rest.store (k := k) (.pv v) (σ := ⟨σ.heap, (σ.streams.set k s1).set k s2⟩) h2 hmm)
  refine ⟨_, hr.trans (Rest.seek (seekIo io.pos s2).2), [("self", .obj r), ("_pos", .pv (.int io.pos))], ?_, rfl, hn, hst.seek _⟩
  have h2' : (⟨σ.heap, (σ.streams.set k s1).set k s2⟩ : State).heap[r]? = some ⟨cls', attrs⟩ := h2
  have hh : (⟨σ.heap.set r ⟨cls', upsert m (.pv v) attrs⟩, (σ.streams.set k s1).set k s2⟩ : State).heap[r]? = some ⟨cls', upsert m (.pv v) attrs⟩ :=
    List.getElem?_set_self (lt_of_getElem? h2)
  have hio : (upsert m (.pv v) attrs).lookup "_io" = some (.io k) := by
    rw [lookup_upsert, if_neg]
    · exact h3
    · rintro rfl
      revert hmm
      decide
  py_run [store_run h2', fetch_run hh, hio, onStream_run _ hst.stream]
  rfl

/-- `self._io` -/
theorem io_lookup (h : Holds σ r k c o io) : ∃ cls attrs, σ.heap[r]? = some ⟨cls, attrs⟩ ∧ attrs.lookup "_io" = some (.io k) := by
  obtain ⟨cls', vs, attrs, h1, h2, h3, h4, h5⟩ := h.object
  exact ⟨_, _, h2, h3⟩

theorem seek_const {C : Calls} (q : Nat) (p : Nat) (h : Holds σ r k c o io) : Runs C σ k io [("self", .obj r), ("_pos", .pv (.int p))]
    (.call (.attr (.attr (.name "self") "_io") "seek") [.int q]) (do seekIo q; return .none) := by
  obtain ⟨cls, attrs, h2, h3⟩ := io_lookup h
  unfold Runs
  py_run [fetch_run h2, h3, onStream_run _ h.stream]

abbrev telemetryClass : LazyClass :=
  ⟨"TelemetryProtocol", _, Hytera.TelemetryProtocol.read, Hytera.TelemetryProtocol.toPy, Hytera.TelemetryProtocol.getters⟩

theorem stream_assoc {α : Type} (a : Rd α) (f : α → PyVal) (sk : Rd Unit) : (do let pos ← posIo; sk; let v ← (do let v ← a; return f v : Rd PyVal); seekIo pos; return some v : Rd (Option PyVal)) =
    (do let pos ← posIo; sk; let v ← a; seekIo pos; return some (f v)) := by
  funext s
  simp only [Bind.bind, Rd.bind, posIo]
  rcases sk s with ⟨_ | _, s1⟩
  · rfl
  · rcases h : a s1 with ⟨_ | _, s2⟩
    · simp only [h]
    · simp only [h]; rfl

theorem telemetry_specific_service : PropertySim telemetryClass "specific_service" (property "specific_service" (fromStream fun _ => do
    let pos ← posIo
    seekIo 0
    let v ← asEnum Hytera.TelemetryProtocol.ServiceSpecificTypes readU2be
    seekIo pos
    return some (EnumVal.toPy "ServiceSpecificTypes" v))) := by
  intro n hn σ r k o io h
  refine sim_property (m := "_m_specific_service") (stmts := peekStmts _ _ _) (fun x => ⟨_, rfl⟩) (by decide) (by rintro x vs ⟨⟩; look_up) rfl (by decide) (by decide)
    ConformHytera.TelemetryProtocol_class rfl (fun {σ o io} h hn => ?_) h
  have := body_peek (c := telemetryClass) (n := n) (Q := .int 0) (E := .call (.attr (.global "KaitaiStream") "resolve_enum") [.enum "Hytera.TelemetryProtocol.ServiceSpecificTypes", .call (.attr (.attr (.name "self") "_io") "read_u2be") []])
    (sk := seekIo 0) (R := do let v ← asEnum Hytera.TelemetryProtocol.ServiceSpecificTypes readU2be; return EnumVal.toPy "ServiceSpecificTypes" v) (m := "_m_specific_service")
    (by decide) (fun s v s' hv => ?_) (fun p h => seek_const 0 p h) (fun p h => ?_) h hn
  · rw [stream_assoc] at this
    exact this
  · obtain ⟨x, s1, -, hx⟩ := Hytera.of_bind_ok hv
    cases hx
    exact enum_plain _ _
  · obtain ⟨cls, attrs, h2, h3⟩ := io_lookup h
    unfold Runs
    py_run [fetch_run h2, h3, onStream_run _ h.stream]

abbrev locationClass : LazyClass :=
  ⟨"LocationProtocol", _, Hytera.LocationProtocol.read, Hytera.LocationProtocol.toPy, Hytera.LocationProtocol.getters⟩

theorem location_opcode : PropertySim locationClass "opcode" (property "opcode" (fromStream fun _ => do
    let pos ← posIo
    seekIo 0
    let v ← asEnum Hytera.LocationProtocol.LpGeneralTypes readU1
    seekIo pos
    return some (EnumVal.toPy "LpGeneralTypes" v))) := by
  intro n hn σ r k o io h
  refine sim_property (m := "_m_opcode") (stmts := peekStmts _ _ _) (fun x => ⟨_, rfl⟩) (by decide) (by rintro x vs ⟨⟩; look_up) rfl (by decide) (by decide)
    ConformHytera.LocationProtocol_class rfl (fun {σ o io} h hn => ?_) h
  have := body_peek (c := locationClass) (n := n) (Q := .int 0) (E := .call (.attr (.global "KaitaiStream") "resolve_enum") [.enum "Hytera.LocationProtocol.LpGeneralTypes", .call (.attr (.attr (.name "self") "_io") "read_u1") []])
    (sk := seekIo 0) (R := do let v ← asEnum Hytera.LocationProtocol.LpGeneralTypes readU1; return EnumVal.toPy "LpGeneralTypes" v) (m := "_m_opcode")
    (by decide) (fun s v s' hv => ?_) (fun p h => seek_const 0 p h) (fun p h => ?_) h hn
  · rw [stream_assoc] at this
    exact this
  · obtain ⟨x, s1, -, hx⟩ := Hytera.of_bind_ok hv
    cases hx
    exact enum_plain _ _
  · obtain ⟨cls, attrs, h2, h3⟩ := io_lookup h
    unfold Runs
    py_run [fetch_run h2, h3, onStream_run _ h.stream]

/-- `fifth_letter`, of both classes. -/
theorem sim_fifth_letter {cls : String} {cd : ClassDef} (hcls : ∀ x : c.Attrs, ∃ vs, c.view x = .struct cls vs)
    (hp1 : ∀ x : c.Attrs, ∀ vs, c.view x = .struct cls vs → vs.lookup "fifth_letter" = none) (hc : library.class cls = some cd)
    (hp : cd.properties.lookup "fifth_letter" = some (lazyProperty "_m_fifth_letter" (peekStmts "_m_fifth_letter" (.int 4)
      (.call (.attr (.call (.attr (.attr (.name "self") "_io") "read_bytes") [.int 1]) "decode") [.str "ASCII"])))) :
    PropertySim c "fifth_letter" (property "fifth_letter" (fromStream fun _ => Homebrew.readFifthLetter)) := by
  intro n hn σ r k o io h
  refine sim_property (m := "_m_fifth_letter") (stmts := peekStmts _ _ _) hcls (by decide) hp1 rfl (by decide) (by decide) hc hp (fun {σ o io} h hn => ?_) h
  have := body_peek (c := c) (n := n) (Q := .int 4) (E := .call (.attr (.call (.attr (.attr (.name "self") "_io") "read_bytes") [.int 1]) "decode") [.str "ASCII"])
    (sk := seekIo 4) (R := do let v ← decodeWith decodeAscii (readBytes 1); return .str v) (m := "_m_fifth_letter")
    (by decide) (fun s v s' hv => ?_) (fun p h => seek_const 4 p h) (fun p h => ?_) h hn
  · rw [stream_assoc] at this
    exact this
  · obtain ⟨x, s1, -, hx⟩ := Hytera.of_bind_ok hv
    cases hx
    exact str_plain _
  · obtain ⟨cls, attrs, h2, h3⟩ := io_lookup h
    unfold Runs
    py_run [fetch_run h2, h3, onStream_run _ h.stream]

abbrev homebrewClass : LazyClass := ⟨"Homebrew2015", _, Homebrew.Homebrew2015.read, Homebrew.Homebrew2015.toPy, Homebrew.Homebrew2015.getters⟩

theorem homebrew_fifth_letter : PropertySim homebrewClass "fifth_letter" (property "fifth_letter" (fromStream fun _ => Homebrew.readFifthLetter)) :=
  sim_fifth_letter (fun x => ⟨_, rfl⟩) (by rintro x vs ⟨⟩; look_up) ConformHomebrew.Homebrew2015_class rfl

abbrev mmdvmClass : LazyClass := ⟨"Mmdvm2020", _, Homebrew.Mmdvm2020.read, Homebrew.Mmdvm2020.toPy, Homebrew.Mmdvm2020.getters⟩

theorem mmdvm_fifth_letter : PropertySim mmdvmClass "fifth_letter" (property "fifth_letter" (fromStream fun _ => Homebrew.readFifthLetter)) :=
  sim_fifth_letter (fun x => ⟨_, rfl⟩) (by rintro x vs ⟨⟩; look_up) ConformHomebrew.Mmdvm2020_class rfl

abbrev rtpClass : LazyClass :=
  ⟨"RealTimeTransportProtocol", _, Hytera.RealTimeTransportProtocol.read, Hytera.RealTimeTransportProtocol.toPy, Hytera.RealTimeTransportProtocol.getters⟩

/-- `self.fixed_header.padding` -/
theorem rtp_padding_flag {C : Calls} {o : PyObj rtpClass.Attrs} {env : Env} (he : var env "self" = pure (.obj r)) (h : Holds σ r k rtpClass o io) :
    (eval library C env (.attr (.attr (.name "self") "fixed_header") "padding")).run σ = .ok (.pv (.bool o.attrs.fixed_header.padding)) σ := by
  obtain ⟨attrs, h2, -, -, ho, -, -⟩ := h.open (c := rtpClass) rfl
  obtain ⟨w, a1, hw⟩ := ho "fixed_header" (o.attrs.fixed_header.toPy) (by decide) (by decide) (by look_up)
  obtain ⟨q, attrs', rfl, h3, -, hp'⟩ := hw.open
  have b1 := hp' "padding" (.bool o.attrs.fixed_header.padding) (by decide) (by decide) (by look_up) (bool_plain _)
  py_run [he, fetch_run h2, fetch_run h3, a1, b1]

theorem rtp_len_padding_if_exists (n : Nat) {o : PyObj rtpClass.Attrs} (h : Holds σ r k rtpClass o io) :
    Simulates σ r k rtpClass (access library (n + 1) r "len_padding_if_exists" σ) (Hytera.RealTimeTransportProtocol.getLenPaddingIfExists o io) := by
  refine sim_property (m := "_m_len_padding_if_exists") (stmts := [.if_ (.attr (.attr (.name "self") "fixed_header") "padding")
    (peekStmts "_m_len_padding_if_exists" (.bin .sub (.call (.attr (.attr (.name "self") "_io") "size") []) (.int 1))
      (.call (.attr (.attr (.name "self") "_io") "read_u1") [])) []])
    (fun x => ⟨_, rfl⟩) (by decide) (by rintro x vs ⟨⟩; look_up) rfl (by decide) (by decide)
    ConformHytera.RealTimeTransportProtocol_class rfl (fun {σ o io} h hn => ?_) h
  have hrun : ∀ stmts : List Stmt, (execs library (calls library n) [.if_ (.attr (.attr (.name "self") "fixed_header") "padding") stmts []] [("self", .obj r)]).run σ =
      if o.attrs.fixed_header.padding then (execs library (calls library n) stmts [("self", .obj r)]).run σ else .ok (.next [("self", .obj r)]) σ := fun stmts => by
    rw [execs_cons, run_bind, exec_if, run_bind, rtp_padding_flag rfl h, bind_ok]
    cases o.attrs.fixed_header.padding
    · rfl
    · show (((execs library (calls library n) stmts [("self", .obj r)]) >>= fun f => andThen (execs library (calls library n) []) f) : M Flow).run σ = _
      rw [run_bind, if_pos rfl]
      cases (execs library (calls library n) stmts [("self", .obj r)]).run σ with
      | raise e τ => rfl
      | ok f τ => cases f <;> first | rfl | (rw [bind_ok, andThen_next, execs_nil]; rfl)
  rw [hrun]
  cases hx : o.attrs.fixed_header.padding with
  | false =>
    rw [if_neg (by simp)]
    unfold fromStream
    dsimp only
    rw [if_neg (by simp [hx])]
    exact ⟨σ, Rest.refl r k σ, _, rfl, rfl, h, hn⟩
  | true =>
    have := body_peek (c := rtpClass) (n := n) (Q := .bin .sub (.call (.attr (.attr (.name "self") "_io") "size") []) (.int 1))
      (E := .call (.attr (.attr (.name "self") "_io") "read_u1") [])
      (sk := do let size ← sizeIo; seekInt ((size : Int) - 1)) (R := do let v ← readU1; return .int (Int.ofNat v)) (m := "_m_len_padding_if_exists")
      (by decide) (fun s v s' hv => ?_) (fun {σ io} p h => ?_) (fun p h => ?_) h hn
    · rw [stream_assoc] at this
      rw [if_pos rfl]
      unfold fromStream at this ⊢
      dsimp only at this ⊢
      rw [if_pos hx]
      exact this
    · obtain ⟨x, s1, -, hx⟩ := Hytera.of_bind_ok hv
      cases hx
      exact int_plain _
    · obtain ⟨cls, attrs, h2, h3⟩ := io_lookup h
      unfold Runs
      py_run [fetch_run h2, h3, onStream_run _ h.stream]
      refine after_congr_ok fun a s _ => ?_
      have hs := h.seek s
      unfold seekInt
      by_cases ha : a = 0
      · rw [if_pos ha, if_pos (by omega), after_throw]
      · rw [if_neg ha, if_neg (by omega), onStream_run _ hs.stream, show ((a : Int) - 1).toNat = a - 1 by omega]
        show Out.ok _ ⟨σ.heap, (σ.streams.set k s).set k (seekIo (a - 1) s).2⟩ = Out.ok _ ⟨σ.heap, σ.streams.set k (seekIo (a - 1) s).2⟩
        rw [List.set_set]
    · obtain ⟨cls, attrs, h2, h3⟩ := io_lookup h
      unfold Runs
      py_run [fetch_run h2, h3, onStream_run _ h.stream]
  
theorem rtp_if_exists : PropertySim rtpClass "len_padding_if_exists" Hytera.RealTimeTransportProtocol.getLenPaddingIfExists :=
  fun n _ _ _ _ _ _ h => rtp_len_padding_if_exists n h

theorem rtp_if_exists_caches (o : PyObj rtpClass.Attrs) (io : Stream) (hn : o.caches.lookup "_m_len_padding" = none) :
    (Hytera.RealTimeTransportProtocol.getLenPaddingIfExists o io).2.1.caches.lookup "_m_len_padding" = none := by
  unfold Hytera.RealTimeTransportProtocol.getLenPaddingIfExists
  generalize (fun x : Hytera.RealTimeTransportProtocol => (if x.fixed_header.padding = true then do
          let pos ← posIo
          let size ← sizeIo
          seekInt ((size : Int) - 1)
          let v ← readU1
          seekIo pos
          return some (PyVal.int (Int.ofNat v))
        else return none : Rd (Option PyVal))) = R
  unfold property fromStream
  rcases hR : R o.attrs io with ⟨_ | _ | v, s⟩
  all_goals
    split
    · exact hn
    · rename_i h0
      simp only [hR]
      first | exact hn | (rw [lookup_snoc _ _ _ _ h0]; exact hn)

theorem rtp_len_padding : PropertySim rtpClass "len_padding" Hytera.RealTimeTransportProtocol.getLenPadding := by
  intro n hn σ r k o io h
  obtain ⟨n, rfl⟩ : ∃ j, n = j + 1 := ⟨n - 1, by omega⟩
  refine sim_property (m := "_m_len_padding") (stmts := [.setattr (.name "self") "_m_len_padding"
      (.ifExp (.attr (.attr (.name "self") "fixed_header") "padding") (.attr (.name "self") "len_padding_if_exists") (.int 0))])
    (fun x => ⟨_, rfl⟩) (by decide) (by rintro x vs ⟨⟩; look_up) rfl (by decide) (by decide)
    ConformHytera.RealTimeTransportProtocol_class rfl (fun {σ o io} h hn => ?_) h
  have hv : var [("self", Val.obj r)] "self" = pure (.obj r) := rfl
  have hflag := rtp_padding_flag (C := calls library (n + 1)) hv h
  have hin := rtp_len_padding_if_exists n h
  unfold access at hin
  have hca := rtp_if_exists_caches o io hn
  cases hx : o.attrs.fixed_header.padding with
  | false =>
    rw [hx] at hflag
    rw [if_neg (by simp)]
    obtain ⟨cls', vs, attrs, h1, h2, h3, h4, h5⟩ := h.object
    refine ⟨_, Rest.store (k := k) (.pv (.int 0)) h2 (by decide), [("self", .obj r)], ?_, rfl, hn,
      h.store h2 (by decide) (.plain _ (int_plain 0).1 (int_plain 0).2) rfl fun y _ => lookup_snoc _ _ _ _ hn⟩
    have hE : (eval library (calls library (n + 1)) [("self", .obj r)]
        (.ifExp (.attr (.attr (.name "self") "fixed_header") "padding") (.attr (.name "self") "len_padding_if_exists") (.int 0))).run σ =
        .ok (.pv (.int 0)) σ := by
      rw [eval_ifExp, run_bind, hflag, bind_ok]
      rfl
    rw [execs_cons, run_bind, exec_setattr, run_bind, hE]
    py_run [store_run h2]
  | true =>
    rw [hx] at hflag
    rw [if_pos rfl]
    have hE : (eval library (calls library (n + 1)) [("self", .obj r)]
        (.ifExp (.attr (.attr (.name "self") "fixed_header") "padding") (.attr (.name "self") "len_padding_if_exists") (.int 0))).run σ =
        (getattr (calls library (n + 1)) (.obj r) "len_padding_if_exists").run σ := by
      rw [eval_ifExp, run_bind, hflag, bind_ok]
      rfl
    rw [execs_cons, run_bind, exec_setattr, run_bind, hE]
    obtain ⟨τ, ht, hh, hr⟩ := hin
    rcases hg : Hytera.RealTimeTransportProtocol.getLenPaddingIfExists o io with ⟨e | v, o', io'⟩
    · rw [hg] at ht hh
      dsimp only at ht hh ⊢
      rw [ht]
      exact ⟨τ, hr, rfl, hh⟩
    · rw [hg] at ht hh hca
      dsimp only at ht hh hca ⊢
      obtain ⟨w, ht, hw⟩ := ht
      rw [ht]
      obtain ⟨cls', vs, attrs, h1, h2, h3, h4, h5⟩ := hh.object
      refine ⟨_, hr.trans (Rest.store (k := k) w h2 (by decide)), [("self", .obj r)], ?_, rfl, hca,
        hh.store h2 (by decide) hw rfl fun y _ => lookup_snoc _ _ _ _ hca⟩
      py_run [store_run h2]

end Dmr.Py
