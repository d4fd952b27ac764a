import Verif.Py.PropertyProofs
import Verif.Py.Conform.RadioIp
import Verif.Py.Conform.RadioId
import Verif.Py.Conform.Gpsdata
import Verif.Py.Conform.IpSiteConnectProtocol
import Verif.Py.Conform.TextMessageProtocol
import Verif.Py.Conform.TextMessageProtocolMotorola
import Verif.Py.Conform.DmrDataHeader
/-
The properties that are computed from attributes.
-/

set_option autoImplicit false

namespace Dmr.Py

/-- Running a property of the source is what its model says, whatever the memory around the object. -/
def PropertySim (c : LazyClass) (p : String) (g : Getter c.Attrs) : Prop :=
  ∀ (n : Nat), 12 ≤ n → ∀ (σ : State) (r k : Nat) (o : PyObj c.Attrs) (io : Stream), Holds σ r k c o io →
    Simulates σ r k c (access library (n + 1) r p σ) (g o io)

theorem decimal_nat (n : Nat) : decimal (n : Int) = Nat.toDigits 10 n := by
  unfold decimal
  rw [if_neg (by omega)]
  rfl

@[py] theorem apply_shr (a n : Nat) : BinOp.apply .shr (.pv (.int (a : Int))) (.pv (.int (no_index (OfNat.ofNat n)))) =
    pure (.pv (.int ((a >>> OfNat.ofNat n : Nat) : Int))) := by
  show (if ((n : Nat) : Int) < 0 then raise .value else pure (Val.pv (.int ((a : Int) / 2 ^ ((n : Nat) : Int).toNat)))) = _
  rw [if_neg (by omega), Nat.shiftRight_eq_div_pow]
  simp only [Int.toNat_natCast, Int.natCast_ediv, Int.natCast_pow]
  rfl

theorem lookup_optAttr (x y : String) (o : Option PyVal) (l : List (String × PyVal)) :
    (PyVal.optAttr y o ++ l).lookup x = if x = y ∧ o.isSome then o else l.lookup x := by
  cases o with
  | none => simp [PyVal.optAttr]
  | some v =>
    show List.lookup x ((y, v) :: l) = _
    rw [lookup_cons]
    by_cases h : x = y <;> simp [h]

theorem lookup_attr (x y : String) (v : PyVal) (l : List (String × PyVal)) :
    (PyVal.attr y v ++ l).lookup x = if x = y then some v else l.lookup x := lookup_cons x y v l

/-- Finds an attribute, or finds that there is none. -/
macro "look_up" : tactic => `(tactic|
  simp (config := { decide := false }) only [List.flatten_cons, List.flatten_nil, List.nil_append, List.cons_append, lookup_cons, lookup_attr, lookup_optAttr, String.reduceEq, if_true, if_false,
    false_and, List.lookup_nil])

abbrev radioIpClass : LazyClass := ⟨"RadioIp", _, Hytera.RadioIp.read, Hytera.RadioIp.toPy, Hytera.RadioIp.getters⟩

theorem radio_ip_radio_id : PropertySim radioIpClass "radio_id" (property "radio_id" (fromAttrs fun x => .ok (.int (Int.ofNat x.radio_id)))) := by
  intro n hn σ r k o io h
  refine sim_attrs (m := "_m_radio_id") ConformHytera.RadioIp_class rfl rfl (by decide) (by decide) (by decide) (fun x => ⟨_, rfl⟩)
    (by rintro x vs ⟨⟩; look_up) (by rintro x v ⟨⟩; exact int_plain _) (fun {σ o io} h => ?_) h
  obtain ⟨attrs, h2, -, -, -, hp, -⟩ := h.open (c := radioIpClass) rfl
  have a1 := hp "radio_id_1" _ (by decide) (by decide) rfl (int_plain _)
  have a2 := hp "radio_id_2" _ (by decide) (by decide) rfl (int_plain _)
  have a3 := hp "radio_id_3" _ (by decide) (by decide) rfl (int_plain _)
  py_run [fetch_run h2, a1, a2, a3]
  rfl

theorem radio_ip_radio_ip : PropertySim radioIpClass "radio_ip" (property "radio_ip" (fromAttrs fun x => .ok (.str x.radio_ip))) := by
  intro n hn σ r k o io h
  refine sim_attrs (m := "_m_radio_ip") ConformHytera.RadioIp_class rfl rfl (by decide) (by decide) (by decide) (fun x => ⟨_, rfl⟩)
    (by rintro x vs ⟨⟩; look_up) (by rintro x v ⟨⟩; exact str_plain _) (fun {σ o io} h => ?_) h
  obtain ⟨attrs, h2, -, -, -, hp, -⟩ := h.open (c := radioIpClass) rfl
  have a0 := hp "subnet" _ (by decide) (by decide) rfl (int_plain _)
  have a1 := hp "radio_id_1" _ (by decide) (by decide) rfl (int_plain _)
  have a2 := hp "radio_id_2" _ (by decide) (by decide) rfl (int_plain _)
  have a3 := hp "radio_id_3" _ (by decide) (by decide) rfl (int_plain _)
  py_run [fetch_run h2, a0, a1, a2, a3, builtin, BinOp.apply, decimal_nat, Hytera.RadioIp.radio_ip]

abbrev radioIdClass : LazyClass := ⟨"RadioId", _, Hytera.RadioId.read, Hytera.RadioId.toPy, Hytera.RadioId.getters⟩

theorem radio_id_radio_id : PropertySim radioIdClass "radio_id" (property "radio_id" (fromAttrs fun x => .ok (.int (Int.ofNat x.radio_id)))) := by
  intro n hn σ r k o io h
  refine sim_attrs (m := "_m_radio_id") ConformHytera.RadioId_class rfl rfl (by decide) (by decide) (by decide) (fun x => ⟨_, rfl⟩)
    (by rintro x vs ⟨⟩; look_up) (by rintro x v ⟨⟩; exact int_plain _) (fun {σ o io} h => ?_) h
  obtain ⟨attrs, h2, -, -, -, hp, -⟩ := h.open (c := radioIdClass) rfl
  have a1 := hp "radio_id_raw" _ (by decide) (by decide) rfl (int_plain _)
  py_run [fetch_run h2, a1, Hytera.RadioId.radio_id]

abbrev gpsdataClass : LazyClass := ⟨"Gpsdata", _, Hytera.Gpsdata.read, Hytera.Gpsdata.toPy, Hytera.Gpsdata.getters⟩

theorem gpsdata_gps_available : PropertySim gpsdataClass "gps_available" (property "gps_available" (fromAttrs fun x => x.gps_available.map .bool)) := by
  intro n hn σ r k o io h
  refine sim_attrs (m := "_m_gps_available") ConformHytera.Gpsdata_class rfl rfl (by decide) (by decide) (by decide) (fun x => ⟨_, rfl⟩)
    (by rintro x vs ⟨⟩; look_up) (fun x v hv => ?_) (fun {σ o io} h => ?_) h
  · cases hx : x.gps_available with
    | error e => rw [hx] at hv; cases hv
    | ok b => rw [hx] at hv; cases hv; exact bool_plain b
  · obtain ⟨attrs, h2, -, -, -, hp, -⟩ := h.open (c := gpsdataClass) rfl
    have a1 := hp "gps_status" _ (by decide) (by decide) rfl (bytes_plain _)
    py_run [fetch_run h2, a1]
    unfold Hytera.Gpsdata.gps_available
    cases decodeAscii o.attrs.gps_status <;> rfl

abbrev ipscClass : LazyClass := ⟨"IpSiteConnectProtocol", _, Hytera.IpSiteConnectProtocol.read, Hytera.IpSiteConnectProtocol.toPy, Hytera.IpSiteConnectProtocol.getters⟩

theorem ipsc_source_radio_id : PropertySim ipscClass "source_radio_id" (property "source_radio_id" (fromAttrs fun x => .ok (.int (Int.ofNat x.source_radio_id)))) := by
  intro n hn σ r k o io h
  refine sim_attrs (m := "_m_source_radio_id") ConformHytera.IpSiteConnectProtocol_class rfl rfl (by decide) (by decide) (by decide) (fun x => ⟨_, rfl⟩)
    (by rintro x vs ⟨⟩; look_up) (by rintro x v ⟨⟩; exact int_plain _) (fun {σ o io} h => ?_) h
  obtain ⟨attrs, h2, -, -, -, hp, -⟩ := h.open (c := ipscClass) rfl
  have a1 := hp "source_radio_id_raw" _ (by decide) (by decide) rfl (int_plain _)
  py_run [fetch_run h2, a1, Hytera.IpSiteConnectProtocol.source_radio_id]

theorem ipsc_destination_radio_id :
    PropertySim ipscClass "destination_radio_id" (property "destination_radio_id" (fromAttrs fun x => .ok (.int (Int.ofNat x.destination_radio_id)))) := by
  intro n hn σ r k o io h
  refine sim_attrs (m := "_m_destination_radio_id") ConformHytera.IpSiteConnectProtocol_class rfl rfl (by decide) (by decide) (by decide) (fun x => ⟨_, rfl⟩)
    (by rintro x vs ⟨⟩; look_up) (by rintro x v ⟨⟩; exact int_plain _) (fun {σ o io} h => ?_) h
  obtain ⟨attrs, h2, -, -, -, hp, -⟩ := h.open (c := ipscClass) rfl
  have a1 := hp "destination_radio_id_raw" _ (by decide) (by decide) rfl (int_plain _)
  py_run [fetch_run h2, a1, Hytera.IpSiteConnectProtocol.destination_radio_id]

theorem ipsc_color_code : PropertySim ipscClass "color_code" (property "color_code" (fromAttrs fun x => .ok (.int (Int.ofNat x.color_code)))) := by
  intro n hn σ r k o io h
  refine sim_attrs (m := "_m_color_code") ConformHytera.IpSiteConnectProtocol_class rfl rfl (by decide) (by decide) (by decide) (fun x => ⟨_, rfl⟩)
    (by rintro x vs ⟨⟩; look_up) (by rintro x v ⟨⟩; exact int_plain _) (fun {σ o io} h => ?_) h
  obtain ⟨attrs, h2, -, -, -, hp, -⟩ := h.open (c := ipscClass) rfl
  have a1 := hp "color_code_raw" _ (by decide) (by decide) rfl (int_plain _)
  py_run [fetch_run h2, a1, Hytera.IpSiteConnectProtocol.color_code]

theorem ipsc_is_wakeup : PropertySim ipscClass "is_wakeup" (property "is_wakeup" (fromAttrs fun x => .ok (.bool x.is_wakeup))) := by
  intro n hn σ r k o io h
  refine sim_attrs (m := "_m_is_wakeup") ConformHytera.IpSiteConnectProtocol_class rfl rfl (by decide) (by decide) (by decide) (fun x => ⟨_, rfl⟩)
    (by rintro x vs ⟨⟩; look_up) (by rintro x v ⟨⟩; exact bool_plain _) (fun {σ o io} h => ?_) h
  obtain ⟨attrs, h2, -, -, -, hp, -⟩ := h.open (c := ipscClass) rfl
  have a1 := hp "call_type" _ (by decide) (by decide) rfl (enum_plain _ _)
  have a2 := hp "slot_type" _ (by decide) (by decide) rfl (enum_plain _ _)
  py_run [fetch_run h2, a1, a2, Hytera.IpSiteConnectProtocol.is_wakeup]
  by_cases h1 : o.attrs.call_type = .known .wakeup_call_2
  · simp [h1]
  · by_cases h2 : o.attrs.call_type = .known .wakeup_call_c <;> simp [h1, h2]

theorem enum_value {C : Calls} (cls : String) {E : Type} [PyEnum E] (e : EnumVal E) :
    getattr C (.pv (EnumVal.toPy cls e)) "value" = match e with | .known e => pure (.pv (.int (PyEnum.value e : Nat))) | .raw _ => raise .attribute := by
  cases e <;> rfl

theorem absent_property {σ : State} {r : Nat} {cls x : String} {attrs : List (String × Val)} (h : σ.heap[r]? = some ⟨cls, attrs⟩) (hp : library.property cls x = none)
    {n : Nat} (hn : 12 ≤ n) : ((calls library n).property r x).run σ = .raise .attribute σ := by
  obtain ⟨n, rfl⟩ : ∃ k, n = k + 1 := ⟨n - 1, by omega⟩
  show (fetch r >>= _ : M Val).run σ = _
  rw [run_bind, fetch_run h, bind_ok]
  simp only [hp]
  rfl

abbrev textMessageClass : LazyClass :=
  ⟨"TextMessageProtocol", _, Hytera.TextMessageProtocol.read, Hytera.TextMessageProtocol.toPy, Hytera.TextMessageProtocol.getters⟩

/-- The length of the options, with the two octets that say how long they are. -/
def optionSumLen (x : Hytera.TextMessageProtocol) : Except PyErr PyVal :=
  match x.option_flag with
  | .raw _ => .error .attribute
  | .known f =>
    if PyEnum.value f = 1 then
      match x.option_field_len with
      | some n => .ok (.int (Int.ofNat (n + 2)))
      | none => .error .attribute
    else .ok (.int 0)

theorem text_option_sum_len : PropertySim textMessageClass "option_sum_len" (property "option_sum_len" (fromAttrs optionSumLen)) := by
  intro n hn σ r k o io h
  refine sim_attrs (m := "_m_option_sum_len") ConformHytera.TextMessageProtocol_class rfl rfl (by decide) (by decide) (by decide) (fun x => ⟨_, rfl⟩)
    (by rintro x vs ⟨⟩; look_up) (fun x v hv => ?_) (fun {σ o io} h => ?_) h
  · unfold optionSumLen at hv
    split at hv
    · cases hv
    · split at hv
      · split at hv
        · cases hv; exact int_plain _
        · cases hv
      · cases hv; exact int_plain _
  · obtain ⟨attrs, h2, -, -, -, hp, hq⟩ := h.open (c := textMessageClass) rfl
    have a1 := hp "option_flag" (EnumVal.toPy "OptionFlags" o.attrs.option_flag) (by decide) (by decide) (by look_up) (enum_plain _ _)
    have a2 : attrs.lookup "option_field_len" = (o.attrs.option_field_len.map fun n => Val.pv (.int (Int.ofNat n))) := by
      cases hl : o.attrs.option_field_len with
      | none => exact hq "option_field_len" (by decide) (by decide) (by look_up; simp [hl])
      | some n => exact hp "option_field_len" (.int (Int.ofNat n)) (by decide) (by decide) (by look_up; simp [hl]) (int_plain _)
    unfold optionSumLen
    have hpr := absent_property (x := "option_field_len") h2 (ConformHytera.TextMessageProtocol_property _) hn
    py_run [fetch_run h2, a1, enum_value]
    cases hf : o.attrs.option_flag with
    | raw v => py_run []
    | known f =>
      py_run []
      by_cases h1 : PyEnum.value f = 1
      · cases hl : o.attrs.option_field_len with
        | none =>
          rw [hl] at a2
          py_run [h1, fetch_run h2, a2, Option.map_none, hpr]
        | some m =>
          rw [hl] at a2
          py_run [h1, fetch_run h2, a2, Option.map_some]
          rfl
      · py_run [h1]


abbrev shortRawClass : LazyClass :=
  ⟨"DataHeaderShortRaw", _, Etsi.DmrDataHeader.DataHeaderShortRaw.read, Etsi.DmrDataHeader.DataHeaderShortRaw.toPy, Etsi.DmrDataHeader.DataHeaderShortRaw.getters⟩

theorem shortRaw_appended_blocks : PropertySim shortRawClass "appended_blocks" (property "appended_blocks" (fromAttrs fun x => .ok (.int (Int.ofNat x.appended_blocks)))) := by
  intro n hn σ r k o io h
  refine sim_attrs (m := "_m_appended_blocks") ConformEtsi.DmrDataHeader_DataHeaderShortRaw_class rfl rfl (by decide) (by decide) (by decide) (fun x => ⟨_, rfl⟩)
    (by rintro x vs ⟨⟩; look_up) (by rintro x v ⟨⟩; exact int_plain _) (fun {σ o io} h => ?_) h
  obtain ⟨attrs, h2, -, -, -, hp, -⟩ := h.open (c := shortRawClass) rfl
  have a1 := hp "appended_blocks_msb" (.int (Int.ofNat o.attrs.appended_blocks_msb)) (by decide) (by decide) (by look_up) (int_plain _)
  have a2 := hp "appended_blocks_lsb" (.int (Int.ofNat o.attrs.appended_blocks_lsb)) (by decide) (by decide) (by look_up) (int_plain _)
  py_run [fetch_run h2, a1, a2]
  rfl

abbrev shortStatusPrecodedClass : LazyClass :=
  ⟨"DataHeaderShortStatusPrecoded", _, Etsi.DmrDataHeader.DataHeaderShortStatusPrecoded.read, Etsi.DmrDataHeader.DataHeaderShortStatusPrecoded.toPy, Etsi.DmrDataHeader.DataHeaderShortStatusPrecoded.getters⟩

theorem shortStatusPrecoded_appended_blocks : PropertySim shortStatusPrecodedClass "appended_blocks" (property "appended_blocks" (fromAttrs fun x => .ok (.int (Int.ofNat x.appended_blocks)))) := by
  intro n hn σ r k o io h
  refine sim_attrs (m := "_m_appended_blocks") ConformEtsi.DmrDataHeader_DataHeaderShortStatusPrecoded_class rfl rfl (by decide) (by decide) (by decide) (fun x => ⟨_, rfl⟩)
    (by rintro x vs ⟨⟩; look_up) (by rintro x v ⟨⟩; exact int_plain _) (fun {σ o io} h => ?_) h
  obtain ⟨attrs, h2, -, -, -, hp, -⟩ := h.open (c := shortStatusPrecodedClass) rfl
  have a1 := hp "appended_blocks_msb" (.int (Int.ofNat o.attrs.appended_blocks_msb)) (by decide) (by decide) (by look_up) (int_plain _)
  have a2 := hp "appended_blocks_lsb" (.int (Int.ofNat o.attrs.appended_blocks_lsb)) (by decide) (by decide) (by look_up) (int_plain _)
  py_run [fetch_run h2, a1, a2]
  rfl

abbrev shortDefinedClass : LazyClass :=
  ⟨"DataHeaderShortDefined", _, Etsi.DmrDataHeader.DataHeaderShortDefined.read, Etsi.DmrDataHeader.DataHeaderShortDefined.toPy, Etsi.DmrDataHeader.DataHeaderShortDefined.getters⟩

theorem shortDefined_appended_blocks : PropertySim shortDefinedClass "appended_blocks" (property "appended_blocks" (fromAttrs fun x => .ok (.int (Int.ofNat x.appended_blocks)))) := by
  intro n hn σ r k o io h
  refine sim_attrs (m := "_m_appended_blocks") ConformEtsi.DmrDataHeader_DataHeaderShortDefined_class rfl rfl (by decide) (by decide) (by decide) (fun x => ⟨_, rfl⟩)
    (by rintro x vs ⟨⟩; look_up) (by rintro x v ⟨⟩; exact int_plain _) (fun {σ o io} h => ?_) h
  obtain ⟨attrs, h2, -, -, -, hp, -⟩ := h.open (c := shortDefinedClass) rfl
  have a1 := hp "appended_blocks_msb" (.int (Int.ofNat o.attrs.appended_blocks_msb)) (by decide) (by decide) (by look_up) (int_plain _)
  have a2 := hp "appended_blocks_lsb" (.int (Int.ofNat o.attrs.appended_blocks_lsb)) (by decide) (by decide) (by look_up) (int_plain _)
  py_run [fetch_run h2, a1, a2]
  rfl

abbrev sequenceClass : LazyClass :=
  ⟨"TextMessageHeaderSequenceAndEncoding", _, Motorola.TextMessageProtocol.TextMessageHeaderSequenceAndEncoding.read, Motorola.TextMessageProtocol.TextMessageHeaderSequenceAndEncoding.toPy,
    Motorola.TextMessageProtocol.TextMessageHeaderSequenceAndEncoding.getters⟩

theorem sequence_sequence_number :
    PropertySim sequenceClass "sequence_number" (property "sequence_number" (fromAttrs fun x => x.sequence_number.map fun n => .int (Int.ofNat n))) := by
  intro n hn σ r k o io h
  refine sim_attrs (m := "_m_sequence_number") ConformMotorola.TextMessageProtocol_TextMessageHeaderSequenceAndEncoding_class rfl rfl (by decide) (by decide) (by decide)
    (fun x => ⟨_, rfl⟩) (by rintro x vs ⟨⟩; look_up) (fun x v hv => ?_) (fun {σ o io} h => ?_) h
  · cases hx : x.sequence_number with
    | error e => rw [hx] at hv; cases hv
    | ok b => rw [hx] at hv; cases hv; exact int_plain _
  · obtain ⟨attrs, h2, -, -, -, hp, hq⟩ := h.open (c := sequenceClass) rfl
    have hpr := absent_property (x := "sequence_number_msb_bits") h2
      (ConformMotorola.TextMessageProtocol_TextMessageHeaderSequenceAndEncoding_property _) hn
    have a2 := hp "sequence_number_lsb_bits" (.int (Int.ofNat o.attrs.sequence_number_lsb_bits)) (by decide) (by decide) (by look_up) (int_plain _)
    unfold Motorola.TextMessageProtocol.TextMessageHeaderSequenceAndEncoding.sequence_number
    cases hl : o.attrs.sequence_number_msb_bits with
    | none =>
      have a1 := hq "sequence_number_msb_bits" (by decide) (by decide) (by look_up; simp [hl])
      py_run [fetch_run h2, a1, hpr]
      rfl
    | some m =>
      have a1 := hp "sequence_number_msb_bits" (.int (Int.ofNat m)) (by decide) (by decide) (by look_up; simp [hl]) (int_plain _)
      py_run [fetch_run h2, a1, a2, Except.map]
      rw [Nat.add_comm]
      rfl

abbrev ackSequenceClass : LazyClass :=
  ⟨"TmsAcknowledgementHeaderSequenceNumber", _, Motorola.TextMessageProtocol.TmsAcknowledgementHeaderSequenceNumber.read, Motorola.TextMessageProtocol.TmsAcknowledgementHeaderSequenceNumber.toPy,
    Motorola.TextMessageProtocol.TmsAcknowledgementHeaderSequenceNumber.getters⟩

theorem ackSequence_sequence_number :
    PropertySim ackSequenceClass "sequence_number" (property "sequence_number" (fromAttrs fun x => x.sequence_number.map fun n => .int (Int.ofNat n))) := by
  intro n hn σ r k o io h
  refine sim_attrs (m := "_m_sequence_number") ConformMotorola.TextMessageProtocol_TmsAcknowledgementHeaderSequenceNumber_class rfl rfl (by decide) (by decide) (by decide)
    (fun x => ⟨_, rfl⟩) (by rintro x vs ⟨⟩; look_up) (fun x v hv => ?_) (fun {σ o io} h => ?_) h
  · cases hx : x.sequence_number with
    | error e => rw [hx] at hv; cases hv
    | ok b => rw [hx] at hv; cases hv; exact int_plain _
  · obtain ⟨attrs, h2, -, -, -, hp, hq⟩ := h.open (c := ackSequenceClass) rfl
    have hpr := absent_property (x := "header_msb_bits") h2
      (ConformMotorola.TextMessageProtocol_TmsAcknowledgementHeaderSequenceNumber_property _) hn
    have a2 := hp "header_lsb_bits" (.int (Int.ofNat o.attrs.header_lsb_bits)) (by decide) (by decide) (by look_up) (int_plain _)
    unfold Motorola.TextMessageProtocol.TmsAcknowledgementHeaderSequenceNumber.sequence_number
    cases hl : o.attrs.header_msb_bits with
    | none =>
      have a1 := hq "header_msb_bits" (by decide) (by decide) (by look_up; simp [hl])
      py_run [fetch_run h2, a1, hpr]
      rfl
    | some m =>
      have a1 := hp "header_msb_bits" (.int (Int.ofNat m)) (by decide) (by decide) (by look_up; simp [hl]) (int_plain _)
      py_run [fetch_run h2, a1, a2, Except.map]
      rw [Nat.add_comm]
      rfl

theorem Reads.open {h : List Obj} {w : Val} {cls : String} {vs : List (String × PyVal)} (e : Reads h w (.struct cls vs)) :
    ∃ q attrs, w = .obj q ∧ h[q]? = some ⟨cls, attrs⟩ ∧
      (∀ x v, x ∉ links → x ∉ memos → vs.lookup x = some v → ∃ w, attrs.lookup x = some w ∧ Reads h w v) ∧
      (∀ x v, x ∉ links → x ∉ memos → vs.lookup x = some v → IsPlain v → attrs.lookup x = some (.pv v)) := by
  cases e with
  | plain _ h1 _ => exact absurd rfl (h1 _ _)
  | @object r _ attrs _ f at_ names values =>
    have key : ∀ x v, x ∉ links → x ∉ memos → vs.lookup x = some v → ∃ w, attrs.lookup x = some w ∧ Reads h w v := fun x v hl hm hx => by
      refine ⟨f x, ?_, values x v hl hm hx⟩
      rw [names x hl hm, hx]
      rfl
    refine ⟨r, attrs, rfl, at_, key, fun x v hl hm hx hp => ?_⟩
    obtain ⟨w, hw, hr⟩ := key x v hl hm hx
    rw [hw, hr.eq_plain hp]

abbrev motorolaTextClass : LazyClass :=
  ⟨"TextMessageProtocol", _, Motorola.TextMessageProtocol.read, Motorola.TextMessageProtocol.toPy, Motorola.TextMessageProtocol.getters⟩

theorem motorolaText_custom_pdu_type : PropertySim motorolaTextClass "custom_pdu_type" (property "custom_pdu_type" (fromAttrs fun x =>
    .ok (.int (Int.ofNat (Motorola.TextMessageProtocol.customPduType x.message_header))))) := by
  intro n hn σ r k o io h
  refine sim_attrs (m := "_m_custom_pdu_type") ConformMotorola.TextMessageProtocol_class rfl rfl (by decide) (by decide) (by decide) (fun x => ⟨_, rfl⟩)
    (by rintro x vs ⟨⟩; look_up) (by rintro x v ⟨⟩; exact int_plain _) (fun {σ o io} h => ?_) h
  obtain ⟨attrs, h2, -, hr, ho, hp, hq⟩ := h.open (c := motorolaTextClass) rfl
  have hr := hr (by decide)
  obtain ⟨w, a1, hw⟩ := ho "message_header" (o.attrs.message_header.toPy) (by decide) (by decide) (by look_up)
  obtain ⟨q, attrs', rfl, h3, -, hp'⟩ := hw.open
  have b1 := hp' "acknowledgement_required" (.bool o.attrs.message_header.acknowledgement_required) (by decide) (by decide) (by look_up) (bool_plain _)
  have b2 := hp' "control_user_bit" (.bool o.attrs.message_header.control_user_bit) (by decide) (by decide) (by look_up) (bool_plain _)
  have b3 := hp' "pdu_type" (.int (Int.ofNat o.attrs.message_header.pdu_type)) (by decide) (by decide) (by look_up) (int_plain _)
  py_run [fetch_run h2, fetch_run h3, a1, hr, b1, b2, b3]
  rfl

end Dmr.Py
