import Verif.Py.Base
import Verif.Py.Conform.HyteraDmrApplicationProtocol
/-
Generated by tools/mkpyconform.py: the source file of `Hytera.HyteraSimpleTransportReliabilityProtocol` against the model of its classes.
-/

set_option autoImplicit false
set_option linter.unusedSimpArgs false
set_option maxHeartbeats 1000000

namespace Dmr.Py.ConformHytera

theorem HyteraSimpleTransportReliabilityProtocol.file : files[6]? = some Source.Hytera.HyteraSimpleTransportReliabilityProtocol.file := rfl

theorem enum_HyteraSimpleTransportReliabilityProtocol_OptionCommands : library.enums.find? (fun e => e.qualified == "Hytera.HyteraSimpleTransportReliabilityProtocol.OptionCommands") = some Source.Hytera.HyteraSimpleTransportReliabilityProtocol.OptionCommands := enum_at 6 _ HyteraSimpleTransportReliabilityProtocol.file 0 Source.Hytera.HyteraSimpleTransportReliabilityProtocol.OptionCommands rfl

@[py] theorem resolve_HyteraSimpleTransportReliabilityProtocol_OptionCommands (v : Nat) : resolve library "Hytera.HyteraSimpleTransportReliabilityProtocol.OptionCommands" (.pv (.int (v : Int))) =
    pure (.pv (EnumVal.toPy "OptionCommands" (resolveEnum Dmr.Hytera.HyteraSimpleTransportReliabilityProtocol.OptionCommands v))) := run_resolve Source.Hytera.HyteraSimpleTransportReliabilityProtocol.OptionCommands enum_HyteraSimpleTransportReliabilityProtocol_OptionCommands (by decide) v

theorem HyteraSimpleTransportReliabilityProtocol_Option_class : library.class "Hytera.HyteraSimpleTransportReliabilityProtocol.Option" = some Source.Hytera.HyteraSimpleTransportReliabilityProtocol.Option := class_at 6 _ HyteraSimpleTransportReliabilityProtocol.file 0 Source.Hytera.HyteraSimpleTransportReliabilityProtocol.Option rfl

/-- okdmr/kaitai/hytera/hytera_simple_transport_reliability_protocol.py:81-96 against `Dmr.Hytera.HyteraSimpleTransportReliabilityProtocol.Option`. -/
@[py] theorem HyteraSimpleTransportReliabilityProtocol_Option_builds (n : Nat) (H : List Obj) (S : List Stream) (k : Nat) (hk : k < S.length) (s : Stream)
    (parent root : Val) : ((calls library (n + 3)).construct "Hytera.HyteraSimpleTransportReliabilityProtocol.Option" [.io k, parent, root]).run ⟨H, S.set k s⟩ =
      after Dmr.Hytera.HyteraSimpleTransportReliabilityProtocol.Option.read s (fun e s' => .raise e ⟨H, S.set k s'⟩)
        (built Dmr.Hytera.HyteraSimpleTransportReliabilityProtocol.Option.toPy k parent root H S) := by
  rw [construct_eq library _ "Hytera.HyteraSimpleTransportReliabilityProtocol.Option" _ _ HyteraSimpleTransportReliabilityProtocol_Option_class rfl rfl]
  py_run [onStream_set _ _ _ _ hk, hk, Dmr.Hytera.HyteraSimpleTransportReliabilityProtocol.Option.read, Dmr.Hytera.HyteraSimpleTransportReliabilityProtocol.Option.toPy]

@[py] theorem HyteraSimpleTransportReliabilityProtocol_Option_place (io parent root : Val) (b : Nat) (x : Dmr.Hytera.HyteraSimpleTransportReliabilityProtocol.Option) :
    place io parent root b x.toPy = (.obj b, placeObj io parent root b x.toPy) :=
  place_part _ _ _ _ _ _ (by decide)

theorem HyteraSimpleTransportReliabilityProtocol_class : library.class "Hytera.HyteraSimpleTransportReliabilityProtocol" = some Source.Hytera.HyteraSimpleTransportReliabilityProtocol := class_at 6 _ HyteraSimpleTransportReliabilityProtocol.file 1 Source.Hytera.HyteraSimpleTransportReliabilityProtocol rfl

/-- The attributes of the header. -/
def hstrpAttrs (k : Nat) (parent root : Val) (header : Bytes) (version reserved : Nat) (ho rj cl cn hb ak : Bool) (sn : Nat)
    (rest : List (String × Val)) : List (String × Val) :=
  ("_io", .io k) :: ("_parent", parent) :: ("_root", root) :: ("header", .pv (.bytes header)) :: ("version", .pv (.int (version : Int))) ::
    ("reserved", .pv (.int (reserved : Int))) :: ("has_option", .pv (.bool ho)) :: ("is_reject", .pv (.bool rj)) :: ("is_close", .pv (.bool cl)) ::
    ("is_connect", .pv (.bool cn)) :: ("is_heartbeat", .pv (.bool hb)) :: ("is_ack", .pv (.bool ak)) ::
    ("sequence_number", .pv (.int (sn : Int))) :: rest

/-- okdmr/kaitai/hytera/hytera_simple_transport_reliability_protocol.py:30-44 -/
def hstrpHead : List Stmt :=
  [.setattr (.name "self") "header" (.call (.attr (.attr (.name "self") "_io") "read_bytes") [.int 2]),
   .if_ (.not (.cmp .eq (.attr (.name "self") "header") (.bytes [50, 66])))
    [.raise_ (.call (.attr (.global "kaitaistruct") "ValidationNotEqualError") [.bytes [50, 66], .attr (.name "self") "header", .attr (.name "self") "_io", .str "/seq/0"])]
    [],
   .setattr (.name "self") "version" (.call (.attr (.attr (.name "self") "_io") "read_u1") []),
   .setattr (.name "self") "reserved" (.call (.attr (.attr (.name "self") "_io") "read_bits_int_be") [.int 2]),
   .setattr (.name "self") "has_option" (.cmp .ne (.call (.attr (.attr (.name "self") "_io") "read_bits_int_be") [.int 1]) (.int 0)),
   .setattr (.name "self") "is_reject" (.cmp .ne (.call (.attr (.attr (.name "self") "_io") "read_bits_int_be") [.int 1]) (.int 0)),
   .setattr (.name "self") "is_close" (.cmp .ne (.call (.attr (.attr (.name "self") "_io") "read_bits_int_be") [.int 1]) (.int 0)),
   .setattr (.name "self") "is_connect" (.cmp .ne (.call (.attr (.attr (.name "self") "_io") "read_bits_int_be") [.int 1]) (.int 0)),
   .setattr (.name "self") "is_heartbeat" (.cmp .ne (.call (.attr (.attr (.name "self") "_io") "read_bits_int_be") [.int 1]) (.int 0)),
   .setattr (.name "self") "is_ack" (.cmp .ne (.call (.attr (.attr (.name "self") "_io") "read_bits_int_be") [.int 1]) (.int 0)),
   .expr (.call (.attr (.attr (.name "self") "_io") "align_to_byte") []),
   .setattr (.name "self") "sequence_number" (.call (.attr (.attr (.name "self") "_io") "read_u2be") [])]

/-- okdmr/kaitai/hytera/hytera_simple_transport_reliability_protocol.py:45-60 -/
def hstrpOptions : Stmt :=
  .if_ (.and (.and (.not (.call (.attr (.attr (.name "self") "_io") "is_eof") [])) (.not (.attr (.name "self") "is_heartbeat"))) (.attr (.name "self") "has_option"))
    [.setattr (.name "self") "options" (.emptyList),
     .assign "i" (.int 0),
     .while_ (.bool true)
      [.assign "_" (.call (.cls "Hytera.HyteraSimpleTransportReliabilityProtocol.Option") [.attr (.name "self") "_io", .name "self", .attr (.name "self") "_root"]),
       .expr (.call (.attr (.attr (.name "self") "options") "append") [.name "_"]),
       .if_ (.not (.attr (.name "_") "expect_more_options"))
        [.break_]
        [],
       .assign "i" (.bin .add (.name "i") (.int 1))]]
    []

/-- okdmr/kaitai/hytera/hytera_simple_transport_reliability_protocol.py:62-76 -/
def hstrpData : Stmt :=
  .if_ (.and (.and (.and (.not (.call (.attr (.attr (.name "self") "_io") "is_eof") [])) (.not (.attr (.name "self") "is_reject"))) (.not (.attr (.name "self") "is_close"))) (.not (.attr (.name "self") "is_connect")))
    [.setattr (.name "self") "data" (.emptyList),
     .assign "i" (.int 0),
     .while_ (.not (.call (.attr (.attr (.name "self") "_io") "is_eof") []))
      [.expr (.call (.attr (.attr (.name "self") "data") "append") [.call (.cls "Hytera.HyteraDmrApplicationProtocol") [.attr (.name "self") "_io"]]),
       .assign "i" (.bin .add (.name "i") (.int 1))]]
    []

/-- okdmr/kaitai/hytera/hytera_simple_transport_reliability_protocol.py:78-79 -/
def hstrpExtra : Stmt :=
  .if_ (.not (.call (.attr (.attr (.name "self") "_io") "is_eof") []))
    [.setattr (.name "self") "extra_data" (.call (.attr (.attr (.name "self") "_io") "read_bytes_full") [])]
    []

section
variable (n : Nat) (H : List Obj) (S : List Stream) (k : Nat) (hk : k < S.length) (parent root : Val) (header : Bytes) (version reserved : Nat)
  (ho rj cl cn hb ak : Bool) (sn : Nat)

include hk in
theorem hstrpExtra_run (s : Stream) (env : Env) (henv : var env "self" = pure (.obj H.length)) (T : List Obj) (os ds : Option (List Val)) :
    forget H.length (((exec library (calls library (n + 11)) hstrpExtra env).run
      ⟨H ++ ⟨"Hytera.HyteraSimpleTransportReliabilityProtocol", hstrpAttrs k parent root header version reserved ho rj cl cn hb ak sn
        (os.elim [] (fun l => [("options", .list l)]) ++ ds.elim [] (fun l => [("data", .list l)]))⟩ :: T, S.set k s⟩).bind fun _ σ => .ok (Val.obj H.length) σ) =
    after isEof s (fun e s' => .raise e ⟨H, S.set k s'⟩) fun eof s => after (optionally (!eof) readBytesFull) s (fun e s' => .raise e ⟨H, S.set k s'⟩)
      fun ex s => .ok (Val.obj H.length) ⟨H ++ ⟨"Hytera.HyteraSimpleTransportReliabilityProtocol", hstrpAttrs k parent root header version reserved ho rj cl cn hb ak sn
        (os.elim [] (fun l => [("options", .list l)]) ++ ds.elim [] (fun l => [("data", .list l)]) ++ ex.elim [] (fun b => [("extra_data", .pv (.bytes b))]))⟩ :: T, S.set k s⟩ := by
  cases os <;> cases ds <;> py_run [hstrpExtra, hstrpAttrs, henv, onStream_set _ _ _ _ hk, hk, Option.elim_none, Option.elim_some]

theorem lookup_options (os : Option (List Val)) (X : List (String × Val)) (x : String) (hx : x ≠ "options") :
    List.lookup x (os.elim [] (fun l => [("options", .list l)]) ++ X) = List.lookup x X := by
  cases os
  · rfl
  · py_run [Option.elim_some, hx]
theorem lookup_options' (os : Option (List Val)) (x : String) (hx : x ≠ "options") :
    List.lookup x (os.elim [] (fun l => [("options", Val.list l)])) = none := by
  cases os
  · rfl
  · py_run [Option.elim_some, hx]
theorem upsert_options (os : Option (List Val)) (X : List (String × Val)) (x : String) (v : Val) (hx : x ≠ "options") :
    upsert x v (os.elim [] (fun l => [("options", .list l)]) ++ X) = os.elim [] (fun l => [("options", .list l)]) ++ upsert x v X := by
  cases os
  · rfl
  · py_run [Option.elim_some, hx]
theorem upsert_options' (os : Option (List Val)) (x : String) (v : Val) (hx : x ≠ "options") :
    upsert x v (os.elim [] (fun l => [("options", Val.list l)])) = os.elim [] (fun l => [("options", .list l)]) ++ [(x, v)] := by
  cases os
  · rfl
  · py_run [Option.elim_some, hx]

include hk in
theorem hstrpData_run (s : Stream) (env : Env) (henv : var env "self" = pure (.obj H.length)) (T : List Obj) (os : Option (List Val))
    {f : Flow → State → Out Val} {g : Option (List Dmr.Hytera.HyteraDmrApplicationProtocol) → Stream → Out Val}
    (hf : ∀ env (ds : Option (List Dmr.Hytera.HyteraDmrApplicationProtocol)) s, var env "self" = pure (.obj H.length) → forget H.length (f (.next env)
      ⟨H ++ ⟨"Hytera.HyteraSimpleTransportReliabilityProtocol", hstrpAttrs k parent root header version reserved ho rj cl cn hb ak sn
        (os.elim [] (fun l => [("options", .list l)]) ++ ds.elim [] (fun l => [("data", .list (itemValues (.io k) (.obj H.length) root (H.length + (1 + T.length)) (l.map fun y => y.toPy)))]))⟩ ::
          (T ++ ds.elim [] (fun l => itemParts (.io k) (.obj H.length) root (H.length + (1 + T.length)) (l.map fun y => y.toPy))), S.set k s⟩) = g ds s) :
    forget H.length (((exec library (calls library (n + 11)) hstrpData env).run
      ⟨H ++ ⟨"Hytera.HyteraSimpleTransportReliabilityProtocol", hstrpAttrs k parent root header version reserved ho rj cl cn hb ak sn
        (os.elim [] (fun l => [("options", .list l)]))⟩ :: T, S.set k s⟩).bind f) =
    after isEof s (fun e s' => .raise e ⟨H, S.set k s'⟩) fun eof s =>
      after (optionally ((!eof) && (!rj) && (!cl) && (!cn)) (repeatEos (s.buf.length + 2) Dmr.Hytera.HyteraDmrApplicationProtocol.read)) s
        (fun e s' => .raise e ⟨H, S.set k s'⟩) g := by
  have h0 := fun s => hf env none s henv
  simp only [hstrpAttrs, Option.elim_none, List.append_nil] at h0
  by_cases hc : rj = false ∧ cl = false ∧ cn = false
  · obtain ⟨rfl, rfl, rfl⟩ := hc
    py_run [hstrpData, hstrpAttrs, henv, onStream_set _ _ _ _ hk, hk, lookup_options, lookup_options', upsert_options, upsert_options', Bool.and_true, and_true]
    refine after_congr (fun _ _ => rfl) fun eof s => ?_
    refine if_congr Iff.rfl ?_ ?_
    · refine eos_reads (p := H.length) (st := fun l s => ⟨H ++ ⟨"Hytera.HyteraSimpleTransportReliabilityProtocol", hstrpAttrs k parent root header version reserved ho false false false hb ak sn
        (os.elim [] (fun l => [("options", .list l)]) ++ [("data", .list (itemValues (.io k) (.obj H.length) root (H.length + (1 + T.length)) (l.map fun (y : Dmr.Hytera.HyteraDmrApplicationProtocol) => y.toPy)))])⟩ ::
        (T ++ itemParts (.io k) (.obj H.length) root (H.length + (1 + T.length)) (l.map fun (y : Dmr.Hytera.HyteraDmrApplicationProtocol) => y.toPy)), S.set k s⟩)
        (E := fun e s' => .raise e ⟨H, S.set k s'⟩) (fun e l s => by py_run [])
        (fun env s h => run_loopBound _ _ _ _ _ _ hk _ h.1 rfl)
        (fun env l s h => by py_run [h.1, hstrpAttrs, onStream_set _ _ _ _ hk])
        (fun env l s h => ?_) (fun env l s h => ?_) _ s ?_ (by py_run [hstrpAttrs])
      · obtain ⟨i, hi⟩ := h.2
        refine ⟨upsert "i" (.pv (.int (i + 1))) env, h.next _, ?_⟩
        py_run [h.1, hi, hstrpAttrs, onStream_set _ _ _ _ hk, hk, lookup_options, lookup_options', upsert_options, upsert_options']
      · rw [← hf env (some l) s h.1]
        py_run [Option.elim_some]
      · exact ⟨by rw [var_upsert, if_neg (by decide), henv], 0, by rw [var_upsert, if_pos rfl]⟩
    · exact h0 s
  · cases rj <;> cases cl <;> cases cn <;> first | exact absurd ⟨rfl, rfl, rfl⟩ hc | skip
    all_goals
      py_run [hstrpData, hstrpAttrs, henv, onStream_set _ _ _ _ hk, hk, lookup_options, lookup_options', upsert_options, upsert_options', Bool.and_false, and_false, Bool.and_true, and_true, ite_self]
      exact after_congr (fun _ _ => rfl) fun eof s => h0 s

include hk in
theorem hstrpOptions_run (s : Stream) (env : Env) (henv : var env "self" = pure (.obj H.length))
    {f : Flow → State → Out Val} {g : Option (List Dmr.Hytera.HyteraSimpleTransportReliabilityProtocol.Option) → Stream → Out Val}
    (hf : ∀ env (os : Option (List Dmr.Hytera.HyteraSimpleTransportReliabilityProtocol.Option)) s, var env "self" = pure (.obj H.length) → forget H.length (f (.next env)
      ⟨H ++ ⟨"Hytera.HyteraSimpleTransportReliabilityProtocol", hstrpAttrs k parent (rootOf root H.length) header version reserved ho rj cl cn hb ak sn
        (os.elim [] (fun l => [("options", .list (itemValues (.io k) (.obj H.length) (rootOf root H.length) (H.length + 1) (l.map fun y => y.toPy)))]))⟩ ::
          os.elim [] (fun l => itemParts (.io k) (.obj H.length) (rootOf root H.length) (H.length + 1) (l.map fun y => y.toPy)), S.set k s⟩) = g os s) :
    forget H.length (((exec library (calls library (n + 11)) hstrpOptions env).run
      ⟨H ++ [⟨"Hytera.HyteraSimpleTransportReliabilityProtocol", hstrpAttrs k parent (rootOf root H.length) header version reserved ho rj cl cn hb ak sn []⟩], S.set k s⟩).bind f) =
    after isEof s (fun e s' => .raise e ⟨H, S.set k s'⟩) fun eof s =>
      after (optionally ((!eof) && (!hb) && ho) (repeatUntil (s.buf.length + 2) Dmr.Hytera.HyteraSimpleTransportReliabilityProtocol.Option.read
        (fun x => do return !(x.expect_more_options)))) s
        (fun e s' => .raise e ⟨H, S.set k s'⟩) g := by
  have h0 := fun s => hf env none s henv
  simp only [hstrpAttrs, Option.elim_none, List.append_nil] at h0
  by_cases hc : hb = false ∧ ho = true
  · obtain ⟨rfl, rfl⟩ := hc
    py_run [hstrpOptions, hstrpAttrs, henv, onStream_set _ _ _ _ hk, hk, Bool.and_true, and_true]
    refine after_congr (fun _ _ => rfl) fun eof s => ?_
    refine if_congr Iff.rfl ?_ ?_
    · refine until_reads (p := H.length) (st := fun l s => ⟨H ++ ⟨"Hytera.HyteraSimpleTransportReliabilityProtocol", hstrpAttrs k parent (rootOf root H.length) header version reserved true rj cl cn false ak sn
        [("options", .list (itemValues (.io k) (.obj H.length) (rootOf root H.length) (H.length + 1) (l.map fun (y : Dmr.Hytera.HyteraSimpleTransportReliabilityProtocol.Option) => y.toPy)))]⟩ ::
        itemParts (.io k) (.obj H.length) (rootOf root H.length) (H.length + 1) (l.map fun (y : Dmr.Hytera.HyteraSimpleTransportReliabilityProtocol.Option) => y.toPy), S.set k s⟩)
        (E := fun e s' => .raise e ⟨H, S.set k s'⟩) (fun e l s => by py_run [])
        (fun env s h => run_loopBound _ _ _ _ _ _ hk _ h.1 rfl)
        (fun env l s h => ?_) (fun env l s h => ?_) _ s ?_ (by py_run [hstrpAttrs])
      · obtain ⟨i, hi⟩ := h.2
        refine ⟨fun a => upsert "_" (.obj (H.length + (1 + objectsOf (l.map fun y => y.toPy)))) env, fun a => upsert "i" (.pv (.int (i + 1))) (upsert "_" (.obj (H.length + (1 + objectsOf (l.map fun y => y.toPy)))) env),
          fun a => h.upsert _ _ (by decide) (by decide), fun a => (h.upsert _ _ (by decide) (by decide)).next _, ?_⟩
        py_run [h.1, hi, hstrpAttrs, onStream_set _ _ _ _ hk, var_upsert, hk]
        refine after_congr (fun _ _ => rfl) fun a s' => ?_
        rw [show a.toPy = .object "Hytera.HyteraSimpleTransportReliabilityProtocol.Option" _ from rfl, fetch_item]
        py_run [hi, var_upsert, ok_ite]
      · rw [← hf env (some l) s h.1]
        py_run [Option.elim_some]
      · exact ⟨by rw [var_upsert, if_neg (by decide), henv], 0, by rw [var_upsert, if_pos rfl]⟩
    · exact h0 s
  · cases hb <;> cases ho <;> first | exact absurd ⟨rfl, rfl⟩ hc | skip
    all_goals
      py_run [hstrpOptions, hstrpAttrs, henv, onStream_set _ _ _ _ hk, hk, Bool.and_false, and_false, Bool.and_true, and_true, ite_self]
      exact after_congr (fun _ _ => rfl) fun eof s => h0 s

end

/-- okdmr/kaitai/hytera/hytera_simple_transport_reliability_protocol.py:17-96 against `Dmr.Hytera.HyteraSimpleTransportReliabilityProtocol`. -/
@[py] theorem HyteraSimpleTransportReliabilityProtocol_builds (n : Nat) (H : List Obj) (S : List Stream) (k : Nat) (hk : k < S.length) (s : Stream)
    (parent root : Val) : ((calls library (n + 13)).construct "Hytera.HyteraSimpleTransportReliabilityProtocol" [.io k, parent, root]).run ⟨H, S.set k s⟩ =
      after Dmr.Hytera.HyteraSimpleTransportReliabilityProtocol.read s (fun e s' => .raise e ⟨H, S.set k s'⟩)
        (built Dmr.Hytera.HyteraSimpleTransportReliabilityProtocol.toPy k parent root H S) := by
  rw [construct_eq library _ "Hytera.HyteraSimpleTransportReliabilityProtocol" _ (hstrpHead ++ [hstrpOptions, hstrpData, hstrpExtra]) HyteraSimpleTransportReliabilityProtocol_class rfl rfl]
  py_run [hstrpHead, onStream_set _ _ _ _ hk, hk, Dmr.Hytera.HyteraSimpleTransportReliabilityProtocol.read, Dmr.Hytera.HyteraSimpleTransportReliabilityProtocol.toPy, bind_bind]
  py_same
  rename_i header _ version _ reserved _ ho _ rj _ cl _ cn _ hb _ ak _ _ _ sn s1
  let E : PyErr → Stream → Out Val := fun e s' => .raise e ⟨H, S.set k s'⟩
  let vs (l : List Dmr.Hytera.HyteraSimpleTransportReliabilityProtocol.Option) := itemValues (.io k) (.obj H.length) (rootOf root H.length) (H.length + 1) (l.map fun y => y.toPy)
  let ps (l : List Dmr.Hytera.HyteraSimpleTransportReliabilityProtocol.Option) := itemParts (.io k) (.obj H.length) (rootOf root H.length) (H.length + 1) (l.map fun y => y.toPy)
  refine (hstrpOptions_run n H S k hk parent root header version reserved (!decide (ho = 0)) (!decide (rj = 0)) (!decide (cl = 0)) (!decide (cn = 0)) (!decide (hb = 0)) (!decide (ak = 0)) sn s1 _ (by py_run []) (g := fun os s => after isEof s E fun eof s =>
      after (optionally ((!eof) && (!(!decide (rj = 0))) && (!(!decide (cl = 0))) && (!(!decide (cn = 0)))) (repeatEos (s.buf.length + 2) Dmr.Hytera.HyteraDmrApplicationProtocol.read)) s E
        fun ds s => after isEof s E fun eof s => after (optionally (!eof) readBytesFull) s E fun ex s => 
          .ok (Val.obj H.length) ⟨H ++ ⟨"Hytera.HyteraSimpleTransportReliabilityProtocol", hstrpAttrs k parent (rootOf root H.length) header version reserved (!decide (ho = 0)) (!decide (rj = 0)) (!decide (cl = 0)) (!decide (cn = 0)) (!decide (hb = 0)) (!decide (ak = 0)) sn
        ((os.map vs).elim [] (fun l => [("options", .list l)]) ++ (ds.map fun l => itemValues (.io k) (.obj H.length) (rootOf root H.length) (H.length + (1 + (os.elim [] ps).length)) (l.map fun y => y.toPy)).elim [] (fun l => [("data", .list l)]) ++ ex.elim [] (fun b => [("extra_data", .pv (.bytes b))]))⟩ ::
          (os.elim [] ps ++ ds.elim [] fun l => itemParts (.io k) (.obj H.length) (rootOf root H.length) (H.length + (1 + (os.elim [] ps).length)) (l.map fun y => y.toPy)), S.set k s⟩) ?_).trans ?_
  · intro env os s henv
    have h := hstrpData_run n H S k hk parent (rootOf root H.length) header version reserved (!decide (ho = 0)) (!decide (rj = 0)) (!decide (cl = 0)) (!decide (cn = 0)) (!decide (hb = 0)) (!decide (ak = 0)) sn s env henv (os.elim [] ps) (os.map vs)
      (f := fun fl σ => ((andThen (execs library (calls library (n + 11)) [hstrpExtra]) fl).run σ).bind fun _ σ => .ok (Val.obj H.length) σ)
      (g := fun ds s => after isEof s E fun eof s => after (optionally (!eof) readBytesFull) s E fun ex s => 
          .ok (Val.obj H.length) ⟨H ++ ⟨"Hytera.HyteraSimpleTransportReliabilityProtocol", hstrpAttrs k parent (rootOf root H.length) header version reserved (!decide (ho = 0)) (!decide (rj = 0)) (!decide (cl = 0)) (!decide (cn = 0)) (!decide (hb = 0)) (!decide (ak = 0)) sn
        ((os.map vs).elim [] (fun l => [("options", .list l)]) ++ (ds.map fun l => itemValues (.io k) (.obj H.length) (rootOf root H.length) (H.length + (1 + (os.elim [] ps).length)) (l.map fun y => y.toPy)).elim [] (fun l => [("data", .list l)]) ++ ex.elim [] (fun b => [("extra_data", .pv (.bytes b))]))⟩ ::
          (os.elim [] ps ++ ds.elim [] fun l => itemParts (.io k) (.obj H.length) (rootOf root H.length) (H.length + (1 + (os.elim [] ps).length)) (l.map fun y => y.toPy)), S.set k s⟩)
      (fun env ds s henv => ?_)
    · rw [andThen_next, execs_cons, run_bind, bind_bind]
      cases os <;> exact h
    · have h := hstrpExtra_run n H S k hk parent (rootOf root H.length) header version reserved (!decide (ho = 0)) (!decide (rj = 0)) (!decide (cl = 0)) (!decide (cn = 0)) (!decide (hb = 0)) (!decide (ak = 0)) sn s env henv
        (os.elim [] ps ++ ds.elim [] fun l => itemParts (.io k) (.obj H.length) (rootOf root H.length) (H.length + (1 + (os.elim [] ps).length)) (l.map fun y => y.toPy))
        (os.map vs) (ds.map fun l => itemValues (.io k) (.obj H.length) (rootOf root H.length) (H.length + (1 + (os.elim [] ps).length)) (l.map fun y => y.toPy))
      rw [andThen_next, execs_cons, run_bind, bind_bind]
      refine Eq.trans ?_ h
      have hx : (fun a σ => (((andThen (execs library (calls library (n + 11)) []) a).run σ).bind fun _ σ => Out.ok (Val.obj H.length) σ)) =
          fun _ σ => Out.ok (Val.obj H.length) σ := by
        funext a σ
        cases a <;> py_run []
      rw [hx]
      cases ds <;> rfl
  · py_run [hstrpAttrs, Option.elim_none, Option.elim_some, E, vs, ps]

@[py] theorem HyteraSimpleTransportReliabilityProtocol_short (n k : Nat) : (calls library (n + 13)).construct "Hytera.HyteraSimpleTransportReliabilityProtocol" [.io k] =
    (calls library (n + 13)).construct "Hytera.HyteraSimpleTransportReliabilityProtocol" [.io k, .pv .none, .pv .none] := construct_short _ _ _ _ HyteraSimpleTransportReliabilityProtocol_class rfl _

@[py] theorem HyteraSimpleTransportReliabilityProtocol_place (io parent root : Val) (b : Nat) (x : Dmr.Hytera.HyteraSimpleTransportReliabilityProtocol) :
    place io parent root b x.toPy = (.obj b, placeObj io (.pv .none) (.obj b) b x.toPy) :=
  place_file _ _ _ _ _ _ (by decide)

end Dmr.Py.ConformHytera
