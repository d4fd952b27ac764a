import Verif.Py.Script.Loop
/-
The tools, one by one, and the loop over the words.
-/

set_option autoImplicit false

namespace Dmr.Script

open Py (Shows ShowsItems ShowsAttrs Distinct library Obj Val State)
open Hytera (IpSiteConnectProtocol)
open Tools

/-- The class of the decoders that a tool uses. -/
def className : Tool → String
  | .hytera_rrs => "Hytera.RadioRegistrationService"
  | .hytera_tmp => "Hytera.TextMessageProtocol"
  | .hytera_ipsc => "Hytera.IpSiteConnectProtocol"
  | .hytera_rcp => "Hytera.RadioControlProtocol"
  | .hytera_dds => "Hytera.DataDeliveryStates"
  | .hytera_hdap => "Hytera.HyteraDmrApplicationProtocol"
  | .hytera_hrnp => "Hytera.HyteraRadioNetworkProtocol"
  | .hytera_hstrp => "Hytera.HyteraSimpleTransportReliabilityProtocol"
  | .hytera_lp => "Hytera.LocationProtocol"
  | .hytera_dtp => "Hytera.DataTransmitProtocol"
  | .hytera_tp => "Hytera.TelemetryProtocol"
  | .homebrew => "Homebrew.Homebrew2015"
  | .mmdvm => "Homebrew.Mmdvm2020"
  | .motorola_ars => "Motorola.AutomaticRegistrationService"
  | .motorola_tmp => "Motorola.TextMessageProtocol"

/-- What a run of the body of the loop writes for one word, and how it ends. -/
def debugOne (t : Tool) (msg : PyStr) : List Output × Except PyErr Unit :=
  match fromHex msg with
  | .error e => ([], .error e)
  | .ok b =>
    match t.fromBytes b with
    | .error e => ([], .error e)
    | .ok x => showDecoded x

theorem debugLoop_cons (t : Tool) (msg : PyStr) (rest : List PyStr) : debugLoop t (msg :: rest) =
    match debugOne t msg with
    | (out, .error e) => (out, .error e)
    | (out, .ok ()) => (out ++ (debugLoop t rest).1, (debugLoop t rest).2) := by
  rw [debugLoop, debugOne]
  cases fromHex msg with
  | error e => rfl
  | ok b =>
    dsimp only
    cases t.fromBytes b with
    | error e => rfl
    | ok x => rfl

/-- The body of the loop does this. -/
def BodyDoes (name : String) (one : PyStr → List Output × Except PyErr Unit) : Prop :=
  ∀ (env : Env) (msg : PyStr) (σ : State), env.lookup "kaitai" = some (.cls name) → env.lookup "hex_msg" = some (.pv (.str msg)) → Distinct σ.heap →
    ∃ σ' env', Distinct σ'.heap ∧ env'.lookup "kaitai" = some (.cls name) ∧
      Does (fun n => execs (calls scripts n) loopBody env) σ (one msg).1 ((one msg).2.map fun _ => .next env') σ'

theorem does_last {s : Stmt} {env env' : Env} {σ σ1 : State} {out : List Output}
    (h1 : Does (fun n => exec (calls scripts n) s env) σ out (.ok (.next env')) σ1) :
    Does (fun n => execs (calls scripts n) [s] env) σ out (.ok (.next env')) σ1 := by
  have := does_next h1 (rest := []) (out' := []) (res := .ok (.next env')) (σ2 := σ1) (by simp only [execs]; exact does_pure _)
  rwa [List.append_nil] at this

theorem ars_there (v : V) (env : Env) : (upsert "ars" v env).lookup "ars" = some v := by rw [lookup_upsert, if_pos rfl]

theorem kaitai_there {name : String} (v : V) {env : Env} (h : env.lookup "kaitai" = some (.cls name)) : (upsert "ars" v env).lookup "kaitai" = some (.cls name) := by
  rw [lookup_upsert, if_neg (by decide), h]

/-- For all classes but one. -/
theorem body_other (t : Tool) {name cls : String} {R : Py.Reader} (hd : Decodes name R) (hc : cls ≠ "Hytera.IpSiteConnectProtocol")
    (hv : ∀ y, ∃ l, R.toPy y = .struct cls l) (hf : ∀ b, t.fromBytes b = (Dmr.fromBytes R.read b).map fun x => .other (R.toPy x)) :
    BodyDoes name (debugOne t) := by
  intro env msg σ hk hx hσ
  unfold debugOne
  cases hh : fromHex msg with
  | error e => exact ⟨σ, env, hσ, hk, does_stop (decode_hex_error hk hx hh)⟩
  | ok b =>
    dsimp only
    rw [hf b, Dmr.fromBytes]
    rcases hr : R.read (Stream.new b) with ⟨e | y, s⟩
    · exact ⟨⟨σ.heap, σ.streams ++ [s]⟩, env, hσ, hk, does_stop (decode_error hd hk hx hh hr)⟩
    · obtain ⟨l, hl⟩ := hv y
      have hdist := decoded_distinct hd hr hσ
      have hshow : Shows (decodedMemory σ (R.toPy y) s).heap (.obj σ.heap.length) (.struct cls l) := by
        unfold decodedMemory; rw [hl]; exact Py.Graph.placeObj_shows _ _ _ _ _ _
      have ho : ∃ attrs, (decodedMemory σ (R.toPy y) s).heap[σ.heap.length]? = some ⟨cls, attrs⟩ := by
        cases hshow with
        | object at_ e => exact ⟨_, at_⟩
      obtain ⟨attrs, ho⟩ := ho
      have ha := ars_there (.obj σ.heap.length) env
      refine ⟨_, _, hdist, kaitai_there (.obj σ.heap.length) hk, ?_⟩
      have := does_next (decode_ok hd hk hx hh hr) (does_next (access_other ha ho hc) (does_next (print_does ha hdist hshow) (does_last (payload_other ha ho hc))))
      simp only [showDecoded, prettyprint, Except.map, hl] at this ⊢
      exact this

/-- For the class into whose objects the tools look. -/
theorem body_ipsc (hd : Decodes "Hytera.IpSiteConnectProtocol" ⟨IpSiteConnectProtocol, IpSiteConnectProtocol.read, IpSiteConnectProtocol.toPy⟩) :
    BodyDoes "Hytera.IpSiteConnectProtocol" (debugOne .hytera_ipsc) := by
  intro env msg σ hk hx hσ
  unfold debugOne
  cases hh : fromHex msg with
  | error e => exact ⟨σ, env, hσ, hk, does_stop (decode_hex_error hk hx hh)⟩
  | ok b =>
    dsimp only
    rw [Tool.fromBytes, Dmr.fromBytes]
    rcases hr : IpSiteConnectProtocol.read (Stream.new b) with ⟨e | y, s⟩
    · exact ⟨⟨σ.heap, σ.streams ++ [s]⟩, env, hσ, hk, does_stop (decode_error hd hk hx hh hr)⟩
    · have hdist := decoded_distinct hd hr hσ
      have ha := ars_there (.obj σ.heap.length) env
      have hat : IpscAt (decodedMemory σ y.toPy s) σ.heap.length y [] := by
        have hshow : Shows (decodedMemory σ y.toPy s).heap (.obj σ.heap.length) (.struct "Hytera.IpSiteConnectProtocol" (ipscAttrs y)) := by
          unfold decodedMemory; rw [ipsc_toPy]; exact Py.Graph.placeObj_shows _ _ _ _ _ _
        cases hshow with
        | object at_ e => exact ⟨_, at_, by rw [List.append_nil]; exact e⟩
      obtain ⟨σ', h2, hat', hdist'⟩ := access_ipsc ha hat hdist
      have hshow : Shows σ'.heap (.obj σ.heap.length) (.struct "Hytera.IpSiteConnectProtocol" (ipscAttrs y ++ ipscMemos y)) := by
        obtain ⟨attrs, h3, h4⟩ := hat'
        exact .object h3 h4
      refine ⟨σ', _, hdist', kaitai_there (.obj σ.heap.length) hk, ?_⟩
      have whole : ∀ {out' : List Output} {res : Except PyErr Flow} {σ2 : State},
          Does (fun n => execs (calls scripts n) [payloadStmt] (upsert "ars" (.obj σ.heap.length) env)) σ' out' res σ2 →
          Does (fun n => execs (calls scripts n) loopBody env) σ (.pprint (.dict (prettyAttrs (ipscAttrs y ++ ipscMemos y))) :: out') res σ2 := fun h =>
        does_next (decode_ok (σ := σ) hd hk hx hh hr) (does_next h2 (does_next (print_does ha hdist' hshow) h))
      have last := payload_ipsc ha hat'
      simp only [Except.map, showDecoded, ipsc_accesses]
      rw [show (⟨y, ipscMemos y⟩ : IpSiteConnectProtocol.Obj).toPy = .struct "Hytera.IpSiteConnectProtocol" (ipscAttrs y ++ ipscMemos y) from rfl, prettyprint]
      by_cases hsync : y.slot_type = .known .slot_type_sync
      · simp only [hsync, ne_eq, not_true_eq_false, if_false] at last ⊢
        exact whole (does_last last)
      · simp only [hsync, ne_eq, not_false_eq_true, if_true] at last ⊢
        cases hsw : byteswapBytes y.ipsc_payload with
        | error e =>
          rw [hsw] at last
          exact whole (does_stop last)
        | ok out =>
          rw [hsw] at last
          exact whole (does_last last)

theorem hytera_rrs_decodes : Decodes "Hytera.RadioRegistrationService" ⟨_, Hytera.RadioRegistrationService.read, Hytera.RadioRegistrationService.toPy⟩ :=
  decodes _ 4 (by decide) Py.ConformHytera.RadioRegistrationService_class rfl fun m H S k hk b => Py.ConformHytera.RadioRegistrationService_builds m H S k hk (Stream.new b) (.pv .none) (.pv .none)
theorem hytera_tmp_decodes : Decodes "Hytera.TextMessageProtocol" ⟨_, Hytera.TextMessageProtocol.read, Hytera.TextMessageProtocol.toPy⟩ :=
  decodes _ 4 (by decide) Py.ConformHytera.TextMessageProtocol_class rfl fun m H S k hk b => Py.ConformHytera.TextMessageProtocol_builds m H S k hk (Stream.new b) (.pv .none) (.pv .none)
theorem hytera_ipsc_decodes : Decodes "Hytera.IpSiteConnectProtocol" ⟨_, Hytera.IpSiteConnectProtocol.read, Hytera.IpSiteConnectProtocol.toPy⟩ :=
  decodes _ 2 (by decide) Py.ConformHytera.IpSiteConnectProtocol_class rfl fun m H S k hk b => Py.ConformHytera.IpSiteConnectProtocol_builds m H S k hk (Stream.new b) (.pv .none) (.pv .none)
theorem hytera_rcp_decodes : Decodes "Hytera.RadioControlProtocol" ⟨_, Hytera.RadioControlProtocol.read, Hytera.RadioControlProtocol.toPy⟩ :=
  decodes _ 6 (by decide) Py.ConformHytera.RadioControlProtocol_class rfl fun m H S k hk b => Py.ConformHytera.RadioControlProtocol_builds m H S k hk (Stream.new b) (.pv .none) (.pv .none)
theorem hytera_dds_decodes : Decodes "Hytera.DataDeliveryStates" ⟨_, Hytera.DataDeliveryStates.read, Hytera.DataDeliveryStates.toPy⟩ :=
  decodes _ 4 (by decide) Py.ConformHytera.DataDeliveryStates_class rfl fun m H S k hk b => Py.ConformHytera.DataDeliveryStates_builds m H S k hk (Stream.new b) (.pv .none) (.pv .none)
theorem hytera_hdap_decodes : Decodes "Hytera.HyteraDmrApplicationProtocol" ⟨_, Hytera.HyteraDmrApplicationProtocol.read, Hytera.HyteraDmrApplicationProtocol.toPy⟩ :=
  decodes _ 10 (by decide) Py.ConformHytera.HyteraDmrApplicationProtocol_class rfl fun m H S k hk b => Py.ConformHytera.HyteraDmrApplicationProtocol_builds m H S k hk (Stream.new b) (.pv .none) (.pv .none)
theorem hytera_hrnp_decodes : Decodes "Hytera.HyteraRadioNetworkProtocol" ⟨_, Hytera.HyteraRadioNetworkProtocol.read, Hytera.HyteraRadioNetworkProtocol.toPy⟩ :=
  decodes _ 12 (by decide) Py.ConformHytera.HyteraRadioNetworkProtocol_class rfl fun m H S k hk b => Py.ConformHytera.HyteraRadioNetworkProtocol_builds m H S k hk (Stream.new b) (.pv .none) (.pv .none)
theorem hytera_hstrp_decodes : Decodes "Hytera.HyteraSimpleTransportReliabilityProtocol" ⟨_, Hytera.HyteraSimpleTransportReliabilityProtocol.read, Hytera.HyteraSimpleTransportReliabilityProtocol.toPy⟩ :=
  decodes _ 12 (by decide) Py.ConformHytera.HyteraSimpleTransportReliabilityProtocol_class rfl fun m H S k hk b => Py.ConformHytera.HyteraSimpleTransportReliabilityProtocol_builds m H S k hk (Stream.new b) (.pv .none) (.pv .none)
theorem hytera_lp_decodes : Decodes "Hytera.LocationProtocol" ⟨_, Hytera.LocationProtocol.read, Hytera.LocationProtocol.toPy⟩ :=
  decodes _ 8 (by decide) Py.ConformHytera.LocationProtocol_class rfl fun m H S k hk b => Py.ConformHytera.LocationProtocol_builds m H S k hk (Stream.new b) (.pv .none) (.pv .none)
theorem hytera_dtp_decodes : Decodes "Hytera.DataTransmitProtocol" ⟨_, Hytera.DataTransmitProtocol.read, Hytera.DataTransmitProtocol.toPy⟩ :=
  decodes _ 6 (by decide) Py.ConformHytera.DataTransmitProtocol_class rfl fun m H S k hk b => Py.ConformHytera.DataTransmitProtocol_builds m H S k hk (Stream.new b) (.pv .none) (.pv .none)
theorem hytera_tp_decodes : Decodes "Hytera.TelemetryProtocol" ⟨_, Hytera.TelemetryProtocol.read, Hytera.TelemetryProtocol.toPy⟩ :=
  decodes _ 6 (by decide) Py.ConformHytera.TelemetryProtocol_class rfl fun m H S k hk b => Py.ConformHytera.TelemetryProtocol_builds m H S k hk (Stream.new b) (.pv .none) (.pv .none)
theorem homebrew_decodes : Decodes "Homebrew.Homebrew2015" ⟨_, Homebrew.Homebrew2015.read, Homebrew.Homebrew2015.toPy⟩ :=
  decodes _ 6 (by decide) Py.ConformHomebrew.Homebrew2015_class rfl fun m H S k hk b => Py.ConformHomebrew.Homebrew2015_builds m H S k hk (Stream.new b) rfl
theorem mmdvm_decodes : Decodes "Homebrew.Mmdvm2020" ⟨_, Homebrew.Mmdvm2020.read, Homebrew.Mmdvm2020.toPy⟩ :=
  decodes _ 6 (by decide) Py.ConformHomebrew.Mmdvm2020_class rfl fun m H S k hk b => Py.ConformHomebrew.Mmdvm2020_builds m H S k hk (Stream.new b) rfl
theorem motorola_ars_decodes : Decodes "Motorola.AutomaticRegistrationService" ⟨_, Motorola.AutomaticRegistrationService.read, Motorola.AutomaticRegistrationService.toPy⟩ :=
  decodes _ 6 (by decide) Py.ConformMotorola.AutomaticRegistrationService_class rfl fun m H S k hk b => Py.ConformMotorola.AutomaticRegistrationService_builds m H S k hk (Stream.new b)
theorem motorola_tmp_decodes : Decodes "Motorola.TextMessageProtocol" ⟨_, Motorola.TextMessageProtocol.read, Motorola.TextMessageProtocol.toPy⟩ :=
  decodes _ 6 (by decide) Py.ConformMotorola.TextMessageProtocol_class rfl fun m H S k hk b => Py.ConformMotorola.TextMessageProtocol_builds m H S k hk (Stream.new b)

/-- Every tool. -/
theorem body_does : ∀ t : Tool, BodyDoes (className t) (debugOne t)
  | .hytera_rrs => body_other .hytera_rrs hytera_rrs_decodes (cls := "Hytera.RadioRegistrationService") (by decide) (fun _ => ⟨_, rfl⟩) fun _ => rfl
  | .hytera_tmp => body_other .hytera_tmp hytera_tmp_decodes (cls := "Hytera.TextMessageProtocol") (by decide) (fun _ => ⟨_, rfl⟩) fun _ => rfl
  | .hytera_ipsc => body_ipsc hytera_ipsc_decodes
  | .hytera_rcp => body_other .hytera_rcp hytera_rcp_decodes (cls := "Hytera.RadioControlProtocol") (by decide) (fun _ => ⟨_, rfl⟩) fun _ => rfl
  | .hytera_dds => body_other .hytera_dds hytera_dds_decodes (cls := "Hytera.DataDeliveryStates") (by decide) (fun _ => ⟨_, rfl⟩) fun _ => rfl
  | .hytera_hdap => body_other .hytera_hdap hytera_hdap_decodes (cls := "Hytera.HyteraDmrApplicationProtocol") (by decide) (fun _ => ⟨_, rfl⟩) fun _ => rfl
  | .hytera_hrnp => body_other .hytera_hrnp hytera_hrnp_decodes (cls := "Hytera.HyteraRadioNetworkProtocol") (by decide) (fun _ => ⟨_, rfl⟩) fun _ => rfl
  | .hytera_hstrp => body_other .hytera_hstrp hytera_hstrp_decodes (cls := "Hytera.HyteraSimpleTransportReliabilityProtocol") (by decide) (fun _ => ⟨_, rfl⟩) fun _ => rfl
  | .hytera_lp => body_other .hytera_lp hytera_lp_decodes (cls := "Hytera.LocationProtocol") (by decide) (fun _ => ⟨_, rfl⟩) fun _ => rfl
  | .hytera_dtp => body_other .hytera_dtp hytera_dtp_decodes (cls := "Hytera.DataTransmitProtocol") (by decide) (fun _ => ⟨_, rfl⟩) fun _ => rfl
  | .hytera_tp => body_other .hytera_tp hytera_tp_decodes (cls := "Hytera.TelemetryProtocol") (by decide) (fun _ => ⟨_, rfl⟩) fun _ => rfl
  | .homebrew => body_other .homebrew homebrew_decodes (cls := "Homebrew.Homebrew2015") (by decide) (fun _ => ⟨_, rfl⟩) fun _ => rfl
  | .mmdvm => body_other .mmdvm mmdvm_decodes (cls := "Homebrew.Mmdvm2020") (by decide) (fun _ => ⟨_, rfl⟩) fun _ => rfl
  | .motorola_ars => body_other .motorola_ars motorola_ars_decodes (cls := "Motorola.AutomaticRegistrationService") (by decide) (fun _ => ⟨_, rfl⟩) fun _ => rfl
  | .motorola_tmp => body_other .motorola_tmp motorola_tmp_decodes (cls := "Motorola.TextMessageProtocol") (by decide) (fun _ => ⟨_, rfl⟩) fun _ => rfl

/-- The loop. -/
theorem loop_does (t : Tool) : ∀ (words : List PyStr) (env : Env) (σ : State), env.lookup "kaitai" = some (.cls (className t)) → Distinct σ.heap →
    ∃ σ' env', Does (fun n => forLoop (fun env => execs (calls scripts n) loopBody env) "hex_msg" (words.map fun s => .pv (.str s)) env) σ (debugLoop t words).1
      ((debugLoop t words).2.map fun _ => .next env') σ'
  | [], env, σ, _, _ => ⟨σ, env, by
    simp only [List.map_nil, forLoop, debugLoop, Except.map]
    exact does_pure _⟩
  | msg :: rest, env, σ, hk, hσ => by
    have hk' : (upsert "hex_msg" (.pv (.str msg)) env).lookup "kaitai" = some (.cls (className t)) := by
      rw [lookup_upsert, if_neg (by decide), hk]
    obtain ⟨σ1, env1, hσ1, hk1, h1⟩ := body_does t (upsert "hex_msg" (.pv (.str msg)) env) msg σ hk' (by rw [lookup_upsert, if_pos rfl]) hσ
    obtain ⟨σ2, env2, h2⟩ := loop_does t rest env1 σ1 hk1 hσ1
    simp only [List.map_cons, forLoop]
    rw [debugLoop_cons]
    rcases ho : debugOne t msg with ⟨out, e | u⟩
    · rw [ho] at h1
      exact ⟨σ1, env1, does_bind_error h1⟩
    · rw [ho] at h1
      exact ⟨σ2, env2, does_bind h1 h2⟩

end Dmr.Script
