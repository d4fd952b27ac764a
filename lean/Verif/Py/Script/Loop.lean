import Verif.Py.Script.Ipsc
import Verif.Py.Script.Swap
/-
The loop of okdmr/kaitai/tools/debug.py.
-/

set_option autoImplicit false

namespace Dmr.Script

open Py (Shows ShowsItems ShowsAttrs Distinct library Obj Val State)
open Hytera (IpSiteConnectProtocol)
open Tools

/-- From the memory `σ`, if calls may be nested deeply enough, it writes `out`, and leads to `res` and the memory `σ'`. -/
def Does {α : Type} (m : Nat → S α) (σ : State) (out : List Output) (res : Except PyErr α) (σ' : State) : Prop :=
  ∃ N, ∀ n, N ≤ n → ∀ (w : World), w.memory = σ → ∃ w' : World, w'.memory = σ' ∧ w'.written = w.written ++ out ∧
    (m n).run w = match res with | .ok a => .ok a w' | .error e => .raise e w'

section
variable {α β : Type} {m : Nat → S α} {f : Nat → α → S β} {σ σ1 σ2 : State} {out out' : List Output}

theorem does_bind {a : α} {res : Except PyErr β} (h1 : Does m σ out (.ok a) σ1) (h2 : Does (fun n => f n a) σ1 out' res σ2) :
    Does (fun n => m n >>= f n) σ (out ++ out') res σ2 := by
  obtain ⟨N, h1⟩ := h1
  obtain ⟨M, h2⟩ := h2
  refine ⟨max N M, fun n hn w hw => ?_⟩
  obtain ⟨w1, a1, a2, a3⟩ := h1 n (by omega) w hw
  obtain ⟨w2, b1, b2, b3⟩ := h2 n (by omega) w1 a1
  refine ⟨w2, b1, by rw [b2, a2, List.append_assoc], ?_⟩
  rw [run_bind, a3]
  exact b3

theorem does_bind_error {e : PyErr} (h1 : Does m σ out (.error e) σ1) : Does (fun n => m n >>= f n) σ out (.error e) σ1 := by
  obtain ⟨N, h1⟩ := h1
  refine ⟨N, fun n hn w hw => ?_⟩
  obtain ⟨w1, a1, a2, a3⟩ := h1 n hn w hw
  refine ⟨w1, a1, a2, ?_⟩
  rw [run_bind, a3]
  rfl

theorem does_pure (a : α) : Does (fun _ => pure a) σ [] (.ok a) σ := ⟨0, fun _ _ w hw => ⟨w, hw, by simp, rfl⟩⟩
end

theorem does_next {s : Stmt} {rest : List Stmt} {env env' : Env} {σ σ1 σ2 : State} {out out' : List Output} {res : Except PyErr Flow}
    (h1 : Does (fun n => exec (calls scripts n) s env) σ out (.ok (.next env')) σ1) (h2 : Does (fun n => execs (calls scripts n) rest env') σ1 out' res σ2) :
    Does (fun n => execs (calls scripts n) (s :: rest) env) σ (out ++ out') res σ2 := by
  simp only [execs]
  exact does_bind h1 h2

theorem does_stop {s : Stmt} {rest : List Stmt} {env : Env} {σ σ1 : State} {out : List Output} {e : PyErr}
    (h1 : Does (fun n => exec (calls scripts n) s env) σ out (.error e) σ1) :
    Does (fun n => execs (calls scripts n) (s :: rest) env) σ out (.error e) σ1 := by
  simp only [execs]
  exact does_bind_error h1

theorem library_eq (n : Nat) : (calls scripts n).library = Py.calls library n := by cases n <;> rfl

/-! ### The statements of the loop -/

/-- `ars = kaitai.from_bytes(bytes.fromhex(hex_msg))` -/
def decodeStmt : Stmt :=
  .assign (.name "ars") (.call (.attr (.name "kaitai") "from_bytes") [.call (.attr (.global "bytes") "fromhex") [.name "hex_msg"] []] [])

/-- `isinstance(ars, IpSiteConnectProtocol)` -/
def isIpsc : Expr := .call (.global "isinstance") [.name "ars", .cls "Hytera.IpSiteConnectProtocol"] []

/-- `getattr(ars, name)` -/
def accessStmt (name : String) : Stmt := .expr (.call (.global "getattr") [.name "ars", .str name] [])

/-- The use of the properties. -/
def accessStmts : Stmt :=
  .if_ isIpsc [accessStmt "source_radio_id", accessStmt "destination_radio_id", accessStmt "color_code", accessStmt "is_wakeup"] []

/-- `prettyprint(ars)` -/
def printStmt : Stmt := .expr (.call (.func "prettyprint.prettyprint") [.name "ars"] [])

/-- `print(f"DMR DATA: {byteswap_bytes(ars.ipsc_payload).hex()}")` -/
def lineStmt : Stmt :=
  .expr (.call (.global "print") [.format [.str "DMR DATA: ", .call (.attr (.call (.func "byteswap.byteswap_bytes") [.attr (.name "ars") "ipsc_payload"] []) "hex") [] []]] [])

/-- The line with the payload. -/
def payloadStmt : Stmt :=
  .if_ (.and isIpsc (.cmp .isNot (.attr (.name "ars") "slot_type") (.attr (.enum "Hytera.IpSiteConnectProtocol.SlotTypes") "slot_type_sync"))) [lineStmt] []

/-- The body of the loop. -/
def loopBody : List Stmt := [decodeStmt, accessStmts, printStmt, payloadStmt]

theorem impl_source : Source.debug_ProtocolDebug__impl =
    { params := [("protocol", none), ("kaitai", none), ("arguments", some .none)]
      body := [.assign (.name "args") (.call (.attr (.call (.attr (.script "debug.ProtocolDebug") "_args") [] [("protocol", .name "protocol")]) "parse_args") [.ifExp (.or (.not (.name "arguments")) (.not (.call (.global "len") [.name "arguments"] []))) (.slice (.attr (.global "sys") "argv") (.int 1) .none .none) (.name "arguments")] []),
        .for_ "hex_msg" (.attr (.name "args") "hex") loopBody] } := rfl

section
variable {env : Env} {name : String} {msg : PyStr} {b : Bytes} {σ : State} {r : Nat} {x : IpSiteConnectProtocol}

theorem run_fromHex (hx : env.lookup "hex_msg" = some (.pv (.str msg))) (c : Calls) (w : World) :
    (evals c env [.call (.attr (.global "bytes") "fromhex") [.name "hex_msg"] []]).run w =
      match fromHex msg with | .ok b => .ok [.pv (.bytes b)] w | .error e => .raise e w := by
  have : ∀ c, invoke c (.global "bytes") "fromhex" [.pv (.str msg)] [] = (do return .pv (.bytes (← except (fromHex msg)))) := fun _ => rfl
  script_run [hx, this]
  cases fromHex msg <;> rfl

/-- Not hexadecimal. -/
theorem decode_hex_error {e : PyErr} (hk : env.lookup "kaitai" = some (.cls name)) (hx : env.lookup "hex_msg" = some (.pv (.str msg)))
    (hh : fromHex msg = .error e) : Does (fun n => exec (calls scripts n) decodeStmt env) σ [] (.error e) σ := by
  refine ⟨0, fun n _ w hw => ⟨w, hw, by simp, ?_⟩⟩
  have := run_fromHex hx (calls scripts n) w
  rw [hh] at this
  dsimp only
  rw [decodeStmt, exec, run_bind, eval, run_bind]
  · script_step [hk, eval, this]
  all_goals (intros; simp_all)

theorem decode_run (hk : env.lookup "kaitai" = some (.cls name)) (hx : env.lookup "hex_msg" = some (.pv (.str msg)))
    (hh : fromHex msg = .ok b) (n : Nat) (w : World) : (exec (calls scripts n) decodeStmt env).run w =
      ((decoders (fromBytesRun n name b)).run w).bind fun v w' => .ok (.next (upsert "ars" v env)) w' := by
  have := run_fromHex hx (calls scripts n) w
  rw [hh] at this
  have e : invoke (calls scripts n) (.cls name) "from_bytes" [.pv (.bytes b)] [] = decoders (fromBytesRun n name b) := by
    unfold fromBytesRun
    rw [← library_eq n]
    rfl
  rw [decodeStmt, exec, run_bind, eval, run_bind]
  · script_step [hk, eval, this, evalKw, e]
  all_goals (intros; simp_all)

/-- Not a packet of the class. -/
theorem decode_error {R : Py.Reader} (hd : Decodes name R) {e : PyErr} {s : Stream} (hk : env.lookup "kaitai" = some (.cls name))
    (hx : env.lookup "hex_msg" = some (.pv (.str msg))) (hh : fromHex msg = .ok b) (hr : R.read (Stream.new b) = (.error e, s)) :
    Does (fun n => exec (calls scripts n) decodeStmt env) σ [] (.error e) ⟨σ.heap, σ.streams ++ [s]⟩ := by
  refine ⟨13, fun n hn w hw => ⟨{ w with memory := ⟨σ.heap, σ.streams ++ [s]⟩ }, rfl, by simp, ?_⟩⟩
  rw [decode_run hk hx hh, decoders_raise (σ := ⟨σ.heap, σ.streams ++ [s]⟩) (e := e)]
  · rfl
  · rw [hw]; exact fromBytes_error hd hr n hn σ

/-- The memory after a packet has been decoded. -/
def decodedMemory (σ : State) (v : PyVal) (s : Stream) : State :=
  ⟨σ.heap ++ Py.placeObj (.io σ.streams.length) (.pv .none) (.obj σ.heap.length) σ.heap.length v, σ.streams ++ [s]⟩

theorem decode_ok {R : Py.Reader} (hd : Decodes name R) {y : R.Obj} {s : Stream} (hk : env.lookup "kaitai" = some (.cls name))
    (hx : env.lookup "hex_msg" = some (.pv (.str msg))) (hh : fromHex msg = .ok b) (hr : R.read (Stream.new b) = (.ok y, s)) :
    Does (fun n => exec (calls scripts n) decodeStmt env) σ [] (.ok (.next (upsert "ars" (.obj σ.heap.length) env))) (decodedMemory σ (R.toPy y) s) := by
  refine ⟨13, fun n hn w hw => ⟨{ w with memory := decodedMemory σ (R.toPy y) s }, rfl, by simp, ?_⟩⟩
  rw [decode_run hk hx hh, decoders_ok (σ := decodedMemory σ (R.toPy y) s) (a := .obj σ.heap.length)]
  · rfl
  · rw [hw]; exact fromBytes_ok hd hr n hn σ

theorem decoded_distinct {R : Py.Reader} (hd : Decodes name R) {y : R.Obj} {s : Stream} (hr : R.read (Stream.new b) = (.ok y, s)) (hσ : Distinct σ.heap) :
    Distinct (decodedMemory σ (R.toPy y) s).heap := by
  have := fromBytes_distinct 13 name b σ hσ
  rw [fromBytes_ok hd hr 13 (by omega) σ] at this
  exact this

theorem run_isIpsc {cls : String} {attrs : List (String × Val)} (ha : env.lookup "ars" = some (.obj r)) (c : Calls) (w : World)
    (ho : w.memory.heap[r]? = some ⟨cls, attrs⟩) :
    (eval c env isIpsc).run w = .ok (.pv (.bool (cls == "Hytera.IpSiteConnectProtocol"))) w := by
  have hf : (decoders (Py.fetch r)).run w = .ok ⟨cls, attrs⟩ w := by
    rw [decoders_ok (σ := w.memory) (a := ⟨cls, attrs⟩)]
    exact Py.fetch_run ho
  have e : builtin c "isinstance" [.obj r, .cls "Hytera.IpSiteConnectProtocol"] [] =
    (do return .pv (.bool (← (do return (← decoders (Py.fetch r)).cls == "Hytera.IpSiteConnectProtocol" : S Bool)))) := rfl
  rw [isIpsc]
  script_run [ha, e, hf]

/-- Objects of other classes. -/
theorem access_other {cls : String} {attrs : List (String × Val)} (ha : env.lookup "ars" = some (.obj r)) (ho : σ.heap[r]? = some ⟨cls, attrs⟩)
    (hc : cls ≠ "Hytera.IpSiteConnectProtocol") : Does (fun n => exec (calls scripts n) accessStmts env) σ [] (.ok (.next env)) σ := by
  refine ⟨0, fun n _ w hw => ⟨w, hw, by simp, ?_⟩⟩
  have := run_isIpsc ha (calls scripts n) w (by rw [hw]; exact ho)
  rw [beq_false_of_ne hc] at this
  rw [accessStmts]
  script_step [this]

theorem payload_other {cls : String} {attrs : List (String × Val)} (ha : env.lookup "ars" = some (.obj r)) (ho : σ.heap[r]? = some ⟨cls, attrs⟩)
    (hc : cls ≠ "Hytera.IpSiteConnectProtocol") : Does (fun n => exec (calls scripts n) payloadStmt env) σ [] (.ok (.next env)) σ := by
  refine ⟨0, fun n _ w hw => ⟨w, hw, by simp, ?_⟩⟩
  have := run_isIpsc ha (calls scripts n) w (by rw [hw]; exact ho)
  rw [beq_false_of_ne hc] at this
  rw [payloadStmt]
  script_step [eval, this]

theorem print_does {cls : String} {vs : List (String × PyVal)} (ha : env.lookup "ars" = some (.obj r)) (hd : Distinct σ.heap)
    (hs : Shows σ.heap (.obj r) (.struct cls vs)) :
    Does (fun n => exec (calls scripts n) printStmt env) σ [.pprint (.dict (prettyAttrs vs))] (.ok (.next env)) σ := by
  obtain ⟨N, h⟩ := run_prettyprint hd hs
  refine ⟨N, fun n hn w hw => ⟨{ w with written := w.written ++ [.pprint (.dict (prettyAttrs vs))] }, hw, rfl, ?_⟩⟩
  rw [printStmt]
  script_run [ha, h n hn w (by rw [hw])]

theorem access_does {p : String} {v : PyVal} {σ' : State} (ha : env.lookup "ars" = some (.obj r))
    (h : ∀ n, (Py.getattr (Py.calls library (n + 1)) (.obj r) p).run σ = .ok (.pv v) σ') :
    Does (fun n => exec (calls scripts n) (accessStmt p) env) σ [] (.ok (.next env)) σ' := by
  refine ⟨1, fun n hn w hw => ⟨{ w with memory := σ' }, rfl, by simp, ?_⟩⟩
  obtain ⟨m, rfl⟩ : ∃ m, n = m + 1 := ⟨n - 1, by omega⟩
  have e : builtin (calls scripts (m + 1)) "getattr" [.obj r, .pv (.str p.toList)] [] =
    (do return lift (← decoders (Py.getattr (Py.calls library (m + 1)) (.obj r) (String.ofList p.toList)))) := rfl
  rw [String.ofList_toList] at e
  have hr : (decoders (Py.getattr (Py.calls library (m + 1)) (.obj r) p)).run w = .ok (.pv v) { w with memory := σ' } :=
    decoders_ok (by rw [hw]; exact h m)
  rw [accessStmt]
  script_run [ha, e, hr]

/-- The four properties. -/
theorem access_ipsc (ha : env.lookup "ars" = some (.obj r)) (h : IpscAt σ r x []) (hd : Distinct σ.heap) :
    ∃ σ', Does (fun n => exec (calls scripts n) accessStmts env) σ [] (.ok (.next env)) σ' ∧ IpscAt σ' r x (ipscMemos x) ∧ Distinct σ'.heap := by
  have ⟨attrs, ho, _⟩ := h
  obtain ⟨σ1, σ2, σ3, σ4, hr⟩ := ipsc_four h
  have keep : ∀ {p : String} {τ τ' : State} {v : PyVal}, (Py.getattr (Py.calls library (0 + 1)) (.obj r) p).run τ = .ok (.pv v) τ' → Distinct τ.heap → Distinct τ'.heap := by
    intro p τ τ' v hg hτ
    have := Py.keeps_getattr (Py.calls_keep library (0 + 1)) (.obj r) p τ hτ
    rw [hg] at this
    exact this
  obtain ⟨k1, k2, k3, k4, k5⟩ := hr 0
  refine ⟨σ4, ?_, k5, keep k4 (keep k3 (keep k2 (keep k1 hd)))⟩
  have body := does_next (access_does ha fun n => (hr n).1) (does_next (access_does ha fun n => (hr n).2.1) (does_next (access_does ha fun n => (hr n).2.2.1)
    (does_next (access_does ha fun n => (hr n).2.2.2.1) (rest := []) (out' := []) (by simp only [execs]; exact does_pure _))))
  obtain ⟨N, hb⟩ := body
  refine ⟨N, fun n hn w hw => ?_⟩
  obtain ⟨w', a1, a2, a3⟩ := hb n hn w hw
  refine ⟨w', a1, a2, ?_⟩
  have := run_isIpsc ha (calls scripts n) w (by rw [hw]; exact ho)
  rw [beq_self_eq_true] at this
  dsimp only
  rw [accessStmts, exec, run_bind, this]
  exact a3

theorem run_getattr {p : String} {v : PyVal} {cls : String} {attrs : List (String × Val)} (n : Nat) (w : World) (ho : w.memory.heap[r]? = some ⟨cls, attrs⟩)
    (hp : attrs.lookup p = some (.pv v)) (he : ∀ c, getattr c (.obj r) p = (do return lift (← decoders (Py.getattr c.library (.obj r) p)))) :
    (getattr (calls scripts n) (.obj r) p).run w = .ok (.pv v) w := by
  have hr : (decoders (Py.getattr (Py.calls library n) (.obj r) p)).run w = .ok (.pv v) w :=
    decoders_ok (Py.getattr_run ho hp)
  rw [he, library_eq, run_bind, hr]
  rfl

theorem run_sync (c : Calls) (w : World) : (eval c env (.attr (.enum "Hytera.IpSiteConnectProtocol.SlotTypes") "slot_type_sync")).run w =
    .ok (.pv (EnumVal.toPy "SlotTypes" (.known IpSiteConnectProtocol.SlotTypes.slot_type_sync))) w := by
  rw [eval]
  rfl

theorem identical_sync (t : EnumVal IpSiteConnectProtocol.SlotTypes) :
    identical (.pv (EnumVal.toPy "SlotTypes" t)) (.pv (EnumVal.toPy "SlotTypes" (.known IpSiteConnectProtocol.SlotTypes.slot_type_sync))) =
      pure (decide (t = .known .slot_type_sync)) := by
  cases t with
  | raw v => rfl
  | known e => cases e <;> rfl

theorem format_line (s : PyStr) : formatted [.pv (.str "DMR DATA: ".toList), .pv (.str s)] = some ("DMR DATA: ".toList ++ s) := by
  simp [formatted]

/-- The line with the payload of a packet. -/
theorem payload_ipsc {caches : List (String × PyVal)} (ha : env.lookup "ars" = some (.obj r)) (h : IpscAt σ r x caches) :
    Does (fun n => exec (calls scripts n) payloadStmt env) σ
      (if x.slot_type ≠ .known .slot_type_sync then
        match byteswapBytes x.ipsc_payload with | .ok swapped => [.line ("DMR DATA: ".toList ++ toHex swapped)] | .error _ => []
        else [])
      (if x.slot_type ≠ .known .slot_type_sync then
        match byteswapBytes x.ipsc_payload with | .ok _ => .ok (.next env) | .error e => .error e
        else .ok (.next env)) σ := by
  obtain ⟨attrs, ho, hs⟩ := h
  have there : ∀ {y : String} {v : PyVal}, y ∉ Py.links → (ipscAttrs x).lookup y = some v → Py.IsPlain v → attrs.lookup y = some (.pv v) := by
    intro y v hy hv hpv
    exact flat_lookup hs hy (by rw [lookup_append, hv]; rfl) hpv
  have a1 := there (y := "slot_type") (by decide) rfl (Py.enum_plain _ _)
  have a2 := there (y := "ipsc_payload") (by decide) rfl (Py.bytes_plain _)
  refine ⟨2, fun n hn w hw => ?_⟩
  obtain ⟨m, rfl⟩ : ∃ m, n = m + 2 := ⟨n - 2, by omega⟩
  rw [← hw] at ho
  have e1 := run_isIpsc ha (calls scripts (m + 2)) w ho
  rw [beq_self_eq_true] at e1
  have e2 := run_getattr (m + 2) w ho a1 fun _ => rfl
  have e3 := run_getattr (m + 2) w ho a2 fun _ => rfl
  have e4 : (CmpOp.apply .isNot (.pv (EnumVal.toPy "SlotTypes" x.slot_type)) (.pv (EnumVal.toPy "SlotTypes" (.known IpSiteConnectProtocol.SlotTypes.slot_type_sync)))).run w =
      .ok (decide (x.slot_type ≠ .known .slot_type_sync)) w := by
    rw [CmpOp.apply, run_bind, identical_sync, run_pure, bind_ok, run_pure, decide_not]
  have e5 : (eval (calls scripts (m + 2)) env (.and isIpsc (.cmp .isNot (.attr (.name "ars") "slot_type") (.attr (.enum "Hytera.IpSiteConnectProtocol.SlotTypes") "slot_type_sync")))).run w =
      .ok (.pv (.bool (decide (x.slot_type ≠ .known .slot_type_sync)))) w := by
    have e6 : (eval (calls scripts (m + 2)) env (.attr (.name "ars") "slot_type")).run w = .ok (.pv (EnumVal.toPy "SlotTypes" x.slot_type)) w := by
      script_run [ha, e2]
    rw [eval, run_bind, e1, bind_ok, run_bind, truth_bool, run_pure, bind_ok, if_pos rfl, eval, run_bind, e6, bind_ok, run_bind, run_sync, bind_ok, run_bind, e4]
    rfl
  dsimp only
  rw [payloadStmt, exec, run_bind, e5, bind_ok, run_bind, truth_bool, run_pure, bind_ok]
  by_cases hsync : x.slot_type = .known .slot_type_sync
  · simp only [hsync, ne_eq, not_true_eq_false, decide_false, Bool.false_eq_true, if_false]
    exact ⟨w, hw, by simp, rfl⟩
  · simp only [hsync, ne_eq, not_false_eq_true, decide_true, if_true]
    obtain ⟨t, ht⟩ := run_byteswap_bytes m w x.ipsc_payload
    refine ⟨{ w with buffers := w.buffers ++ t, written := w.written ++
      match byteswapBytes x.ipsc_payload with | .ok swapped => [.line ("DMR DATA: ".toList ++ toHex swapped)] | .error _ => [] }, hw, rfl, ?_⟩
    have e6 : ∀ bs : Bytes, invoke (calls scripts (m + 2)) (.pv (.bytes bs)) "hex" [] [] = pure (.pv (.str (toHex bs))) := fun _ => rfl
    have e7 : ∀ s : PyStr, builtin (calls scripts (m + 2)) "print" [.pv (.str s)] [] = write (.line s) := fun _ => rfl
    cases hsw : byteswapBytes x.ipsc_payload with
    | ok out =>
      rw [hsw] at ht
      have ht' : ((calls scripts (m + 2)).function "byteswap.byteswap_bytes" [.pv (.bytes x.ipsc_payload)] []).run w =
        .ok (.pv (.bytes out)) { w with buffers := w.buffers ++ t } := ht
      rw [lineStmt]
      script_run [ha, e3, ht', e6, format_line, e7]
      rfl
    | error e =>
      rw [hsw] at ht
      have ht' : ((calls scripts (m + 2)).function "byteswap.byteswap_bytes" [.pv (.bytes x.ipsc_payload)] []).run w =
        .raise e { w with buffers := w.buffers ++ t } := ht
      rw [lineStmt]
      script_run [ha, e3, ht']
      simp only [List.append_nil]

end

end Dmr.Script
