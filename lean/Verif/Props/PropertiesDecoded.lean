import Verif.Props.Properties
import Verif.LocalAll
import Verif.ShiftMore
/-
C55, continued: the caches that decoding itself creates are truthful, so the properties of objects that were just decoded behave as
C55_interleaved says.
-/

set_option autoImplicit false

namespace Dmr

open Hytera Etsi Homebrew

namespace Properties

/-- Whether an attribute is a cache. -/
def isCache (a : String × PyVal) : Bool := "_m_".toList.isPrefixOf a.1.toList

theorem filter_attr (n : String) (v : PyVal) (h : "_m_".toList.isPrefixOf n.toList = false) :
    List.filter isCache (PyVal.attr n v) = [] := by
  have : isCache (n, v) = false := h
  simp only [PyVal.attr, List.filter_cons, this, Bool.false_eq_true, if_false, List.filter_nil]

theorem filter_optAttr (n : String) (v : Option PyVal) (h : "_m_".toList.isPrefixOf n.toList = false) :
    List.filter isCache (PyVal.optAttr n v) = [] := by
  cases v with
  | none => rfl
  | some v => exact filter_attr n v h

theorem filter_attr' (n : String) (v : PyVal) (h : "_m_".toList.isPrefixOf n.toList = true) :
    List.filter isCache (PyVal.attr n v) = [(n, v)] := by
  have : isCache (n, v) = true := h
  simp only [PyVal.attr, List.filter_cons, this, if_true, List.filter_nil]

theorem filter_optAttr' (n : String) (v : Option PyVal) (h : "_m_".toList.isPrefixOf n.toList = true) :
    List.filter isCache (PyVal.optAttr n v) = PyVal.optAttr n v := by
  cases v with
  | none => rfl
  | some v => exact filter_attr' n v h

theorem caches_object (c : String) (l : List (List (String × PyVal))) :
    PyVal.caches (.object c l) = (l.map (List.filter isCache)).flatten := by
  show List.filter isCache (([PyVal.attr "_io" .stream, PyVal.attr "_parent" .backref, PyVal.attr "_root" .backref] ++ l).flatten) = _
  rw [List.filter_flatten, List.map_append]
  simp (discharger := decide +kernel) only [List.map_cons, filter_attr, List.map_nil]
  rfl

/-- Nothing is cached. -/
theorem honest_nil {s : LazySpec} {x : s.cls.Attrs} (h : (s.cls.view x).caches = []) (buf : Bytes) :
    Honest s.value (s.cls.fresh x) buf := by
  intro p v hv
  simp only [LazyClass.fresh, h, List.lookup_nil] at hv
  cases hv

/-- What is shown of every class: decoding leaves truthful caches. -/
def FreshHonest (s : LazySpec) : Prop :=
  ∀ io x io', s.cls.read io = (.ok x, io') → (s.cls.name ∈ ["Homebrew2015", "Mmdvm2020"] → io.pos = 0) →
    Honest s.value (s.cls.fresh x) io.buf

macro "no_caches " d:ident : tactic => `(tactic| (
  intro io x io' hr _
  refine honest_nil ?_ _
  dsimp only
  unfold $d
  simp (discharger := decide +kernel) only [caches_object, List.map_cons, List.map_nil, filter_attr, filter_optAttr, List.flatten_cons,
    List.flatten_nil, List.append_nil]))

theorem radioIp_fresh : FreshHonest ⟨⟨"RadioIp", _, RadioIp.read, RadioIp.toPy, RadioIp.getters⟩, radioIpValue⟩ := by
  no_caches RadioIp.toPy
theorem radioId_fresh : FreshHonest ⟨⟨"RadioId", _, RadioId.read, RadioId.toPy, RadioId.getters⟩, radioIdValue⟩ := by
  no_caches RadioId.toPy
theorem gpsdata_fresh : FreshHonest ⟨⟨"Gpsdata", _, Gpsdata.read, Gpsdata.toPy, Gpsdata.getters⟩, gpsdataValue⟩ := by
  no_caches Gpsdata.toPy
theorem ipsc_fresh : FreshHonest ⟨⟨"IpSiteConnectProtocol", _, IpSiteConnectProtocol.read, IpSiteConnectProtocol.toPy,
    IpSiteConnectProtocol.getters⟩, ipscValue⟩ := by
  no_caches IpSiteConnectProtocol.toPy
theorem location_fresh : FreshHonest ⟨⟨"LocationProtocol", _, LocationProtocol.read, LocationProtocol.toPy,
    LocationProtocol.getters⟩, locationValue⟩ := by
  no_caches LocationProtocol.toPy
theorem sequence_fresh : FreshHonest ⟨⟨"TextMessageHeaderSequenceAndEncoding", _,
    Motorola.TextMessageProtocol.TextMessageHeaderSequenceAndEncoding.read,
    Motorola.TextMessageProtocol.TextMessageHeaderSequenceAndEncoding.toPy,
    Motorola.TextMessageProtocol.TextMessageHeaderSequenceAndEncoding.getters⟩, sequenceNumberValue⟩ := by
  no_caches Motorola.TextMessageProtocol.TextMessageHeaderSequenceAndEncoding.toPy
theorem ackSequence_fresh : FreshHonest ⟨⟨"TmsAcknowledgementHeaderSequenceNumber", _,
    Motorola.TextMessageProtocol.TmsAcknowledgementHeaderSequenceNumber.read,
    Motorola.TextMessageProtocol.TmsAcknowledgementHeaderSequenceNumber.toPy,
    Motorola.TextMessageProtocol.TmsAcknowledgementHeaderSequenceNumber.getters⟩, ackSequenceNumberValue⟩ := by
  no_caches Motorola.TextMessageProtocol.TmsAcknowledgementHeaderSequenceNumber.toPy
theorem shortRaw_fresh : FreshHonest ⟨⟨"DataHeaderShortRaw", _, DmrDataHeader.DataHeaderShortRaw.read,
    DmrDataHeader.DataHeaderShortRaw.toPy, DmrDataHeader.DataHeaderShortRaw.getters⟩,
    fun x _ => appendedBlocksValue x.appended_blocks_msb x.appended_blocks_lsb⟩ := by
  no_caches DmrDataHeader.DataHeaderShortRaw.toPy
theorem shortStatus_fresh : FreshHonest ⟨⟨"DataHeaderShortStatusPrecoded", _, DmrDataHeader.DataHeaderShortStatusPrecoded.read,
    DmrDataHeader.DataHeaderShortStatusPrecoded.toPy, DmrDataHeader.DataHeaderShortStatusPrecoded.getters⟩,
    fun x _ => appendedBlocksValue x.appended_blocks_msb x.appended_blocks_lsb⟩ := by
  no_caches DmrDataHeader.DataHeaderShortStatusPrecoded.toPy
theorem shortDefined_fresh : FreshHonest ⟨⟨"DataHeaderShortDefined", _, DmrDataHeader.DataHeaderShortDefined.read,
    DmrDataHeader.DataHeaderShortDefined.toPy, DmrDataHeader.DataHeaderShortDefined.getters⟩,
    fun x _ => appendedBlocksValue x.appended_blocks_msb x.appended_blocks_lsb⟩ := by
  no_caches DmrDataHeader.DataHeaderShortDefined.toPy
theorem dataHeader_fresh : FreshHonest ⟨⟨"DmrDataHeader", _, DmrDataHeader.read, DmrDataHeader.toPy, DmrDataHeader.getters⟩,
    dataHeaderValue⟩ := by
  no_caches DmrDataHeader.toPy

/-- One thing is cached. -/
theorem honest_one {s : LazySpec} {x : s.cls.Attrs} {p : String} {v : PyVal} {buf : Bytes}
    (h : (s.cls.view x).caches = [("_m_" ++ p, v)]) (hv : s.value x buf p = .ok v) : Honest s.value (s.cls.fresh x) buf := by
  intro q w hw
  simp only [LazyClass.fresh, h] at hw
  rcases lookup_append_one [] _ _ _ _ hw with hw | ⟨hq, rfl⟩
  · cases hw
  · rw [cache_inj hq]; exact hv

theorem pduType_fresh : FreshHonest ⟨⟨"TextMessageProtocol", _, Motorola.TextMessageProtocol.read,
    Motorola.TextMessageProtocol.toPy, Motorola.TextMessageProtocol.getters⟩, pduTypeValue⟩ := by
  intro io x io' hr _
  refine honest_one (p := "custom_pdu_type")
    (v := .int (Int.ofNat (Motorola.TextMessageProtocol.customPduType x.message_header))) ?_ ?_
  · dsimp only
    unfold Motorola.TextMessageProtocol.toPy
    simp (discharger := decide +kernel) only [caches_object, List.map_cons, List.map_nil, filter_attr, filter_optAttr,
      filter_attr', List.flatten_cons, List.flatten_nil, List.append_nil, List.nil_append]
    rfl
  · simp only [pduTypeValue, if_pos, Motorola.TextMessageProtocol.customPduType]
    cases x.message_header.acknowledgement_required <;> cases x.message_header.control_user_bit <;> rfl

theorem kept_buf {β : Type} {r : Rd β} (hr : Local AnyBuf r) {t t1 : Stream} {x : β} (e : r t = (.ok x, t1)) : t1.buf = t.buf := by
  obtain ⟨c, h1, _⟩ := hr _ _ _ e
  exact h1

theorem telemetry_fresh : FreshHonest ⟨⟨"TelemetryProtocol", _, TelemetryProtocol.read, TelemetryProtocol.toPy,
    TelemetryProtocol.getters⟩, telemetryValue⟩ := by
  intro io x io' hr _
  refine honest_one (p := "specific_service") (v := EnumVal.toPy "ServiceSpecificTypes" x.m_specific_service) ?_ ?_
  · dsimp only
    unfold TelemetryProtocol.toPy
    simp (discharger := decide +kernel) only [caches_object, List.map_cons, List.map_nil, filter_attr, filter_optAttr,
      filter_attr', List.flatten_cons, List.flatten_nil, List.append_nil, List.nil_append]
    rfl
  · change TelemetryProtocol.read io = _ at hr
    unfold TelemetryProtocol.read at hr
    obtain ⟨_, _, k, hr⟩ := of_bind_ok hr
    have h1 := kept_buf (Local.asEnum Local.readU1) k
    obtain ⟨_, _, k, hr⟩ := of_bind_ok hr
    have h2 := kept_buf Local.readU1 k
    obtain ⟨_, t, k, hr⟩ := of_bind_ok hr
    have h3 := kept_buf Local.readU2be k
    obtain ⟨m, _, k, hr⟩ := of_bind_ok hr
    obtain ⟨_, _, _, hr⟩ := of_bind_ok hr
    cases hr
    rw [← h1, ← h2, ← h3]
    clear h1 h2 h3
    simp only [telemetryValue, if_pos]
    unfold TelemetryProtocol.computeSpecificService at k
    simp only [Bind.bind, Rd.bind, posIo, seekIo, asEnum, readU2be, readBytes, alignToByte, readBytesNotAligned, Pure.pure,
      Rd.pure, List.drop_zero] at k
    match hb : t.buf with
    | [] => rw [hb] at k; cases k
    | [a] => rw [hb] at k; cases k
    | a :: b :: l =>
      rw [hb] at k
      rw [if_pos (by simp)] at k
      cases k
      rfl

theorem optionSumLen_fresh : FreshHonest ⟨⟨"TextMessageProtocol", _, Hytera.TextMessageProtocol.read,
    Hytera.TextMessageProtocol.toPy, Hytera.TextMessageProtocol.getters⟩, textMessageValue⟩ := by
  intro io x io' hr _
  cases ht : x.tmdata with
  | none =>
    refine honest_nil ?_ _
    dsimp only
    unfold Hytera.TextMessageProtocol.toPy
    rw [ht]
    simp (discharger := decide +kernel) only [caches_object, List.map_cons, List.map_nil, filter_attr, filter_optAttr,
      filter_optAttr', List.flatten_cons, List.flatten_nil, List.append_nil, List.nil_append]
    rfl
  | some txt =>
    refine honest_one (p := "option_sum_len")
      (v := .int (match x.option_field_len with | some n => Int.ofNat n + 2 | .none => 0)) ?_ ?_
    · dsimp only
      unfold Hytera.TextMessageProtocol.toPy
      rw [ht]
      simp (discharger := decide +kernel) only [caches_object, List.map_cons, List.map_nil, filter_attr, filter_optAttr,
        filter_optAttr', List.flatten_cons, List.flatten_nil, List.append_nil, List.nil_append]
      rfl
    · change Hytera.TextMessageProtocol.read io = _ at hr
      unfold Hytera.TextMessageProtocol.read at hr
      obtain ⟨_, _, k, hr⟩ := of_bind_ok hr
      obtain ⟨f, _, k, hr⟩ := of_bind_ok hr
      obtain ⟨_, _, k, hr⟩ := of_bind_ok hr
      obtain ⟨_, _, k, hr⟩ := of_bind_ok hr
      obtain ⟨_, _, k, hr⟩ := of_bind_ok hr
      obtain ⟨_, _, k, hr⟩ := of_bind_ok hr
      obtain ⟨b, _, k1, hr⟩ := of_bind_ok hr
      obtain ⟨len, _, k2, hr⟩ := of_bind_ok hr
      obtain ⟨_, _, k, hr⟩ := of_bind_ok hr
      obtain ⟨_, _, k, hr⟩ := of_bind_ok hr
      obtain ⟨_, _, k, hr⟩ := of_bind_ok hr
      obtain ⟨_, _, k, hr⟩ := of_bind_ok hr
      obtain ⟨_, _, k, hr⟩ := of_bind_ok hr
      obtain ⟨_, _, k, hr⟩ := of_bind_ok hr
      obtain ⟨_, _, k, hr⟩ := of_bind_ok hr
      cases hr
      simp only [textMessageValue, if_pos]
      rcases f with (_ | _) | v
      · cases k1
        cases k2
        rfl
      · cases k1
        obtain ⟨n, _, _, k2⟩ := of_bind_ok (show (readU2be >>= fun a => Pure.pure (some a)) _ = _ from k2)
        cases k2
        rfl
      · cases k1

theorem rtp_fresh : FreshHonest ⟨⟨"RealTimeTransportProtocol", _, RealTimeTransportProtocol.read, RealTimeTransportProtocol.toPy,
    RealTimeTransportProtocol.getters⟩, rtpValue⟩ := by
  intro io x io' hr _
  have hv : rtpValue x io.buf "len_padding" = .ok (.int (Int.ofNat x.m_len_padding)) := by
    change RealTimeTransportProtocol.read io = _ at hr
    unfold RealTimeTransportProtocol.read at hr
    obtain ⟨h, t1, k1, hr⟩ := of_bind_ok hr
    have b1 := kept_buf RealTimeTransportProtocol.FixedHeader.read_local k1
    have hne := RealTimeTransportProtocol.FixedHeader.read_nonempty k1
    obtain ⟨_, t2, k, hr⟩ := of_bind_ok hr
    have b2 := kept_buf (Local.optionally _ RealTimeTransportProtocol.HeaderExtension.read_local) k
    obtain ⟨_, t3, k, hr⟩ := of_bind_ok hr
    have b3 : t3 = t2 := by cases k; rfl
    obtain ⟨_, t4, k, hr⟩ := of_bind_ok hr
    have b4 : t4 = t3 := by cases k; rfl
    obtain ⟨m, _, k, hr⟩ := of_bind_ok hr
    obtain ⟨_, _, _, hr⟩ := of_bind_ok hr
    obtain ⟨_, _, _, hr⟩ := of_bind_ok hr
    cases hr
    have bb : t4.buf = io.buf := by rw [b4, b3, b2, b1]
    rw [← bb] at hne ⊢
    clear b1 b2 b3 b4 bb
    unfold RealTimeTransportProtocol.lenPadding at k
    by_cases hp : h.padding = true
    · rw [rtp_last _ hp _ _ (.inr rfl)]
      rw [if_pos hp] at k
      unfold RealTimeTransportProtocol.lenPaddingIfExists optionally at k
      rw [if_pos hp] at k
      rcases List.eq_nil_or_concat t4.buf with hb | ⟨l, a, hb⟩
      · rw [hb] at hne; simp at hne
      · have hl : t4.buf.length = l.length + 1 := by rw [hb]; simp
        have hd : t4.buf.drop l.length = [a] := by rw [hb]; simp
        have hlast : t4.buf.getLast? = some a := by rw [hb]; simp
        rw [hlast]
        simp only [Bind.bind, Rd.bind, posIo, sizeIo, seekIo, readU1, readBytes, alignToByte, readBytesNotAligned, hl,
          Nat.add_sub_cancel, hd] at k
        cases k
        rfl
    · rw [if_neg hp] at k
      cases k
      have hp' : h.padding = false := by simpa using hp
      simp only [rtpValue, hp', Bool.false_eq_true, if_false]
      rw [if_neg (by decide)]
      rfl
  have hc : ((⟨"RealTimeTransportProtocol", _, RealTimeTransportProtocol.read, RealTimeTransportProtocol.toPy,
      RealTimeTransportProtocol.getters⟩ : LazyClass).view x).caches =
      PyVal.optAttr "_m_len_padding_if_exists"
        (if x.fixed_header.padding then some (.int (Int.ofNat x.m_len_padding)) else .none) ++
      [("_m_" ++ "len_padding", .int (Int.ofNat x.m_len_padding))] := by
    dsimp only
    unfold RealTimeTransportProtocol.toPy
    simp (discharger := decide +kernel) only [caches_object, List.map_cons, List.map_nil, filter_attr, filter_optAttr,
      filter_optAttr', filter_attr', List.flatten_cons, List.flatten_nil, List.append_nil, List.nil_append]
    rfl
  intro q w hw
  simp only [LazyClass.fresh] at hw ⊢
  rw [hc] at hw
  rcases lookup_append_one _ _ _ _ _ hw with hw | ⟨hq, rfl⟩
  · by_cases hp : x.fixed_header.padding = true
    · rw [if_pos hp] at hw
      rcases lookup_append_one [] _ _ _ _ (show ([] ++ [("_m_" ++ "len_padding_if_exists", PyVal.int (Int.ofNat x.m_len_padding))]).lookup ("_m_" ++ q) = some w from hw) with hw | ⟨hq, rfl⟩
      · cases hw
      · rw [cache_inj hq, ← hv]
        rw [rtp_last _ hp _ _ (.inl rfl), rtp_last _ hp _ _ (.inr rfl)]
    · rw [if_neg hp] at hw
      cases hw
  · rw [cache_inj hq]; exact hv

theorem letter_of {t t' : Stream} {on : PyStr} (h : Homebrew2015.computeFifthLetter t = (.ok on, t')) :
    fifthLetterValue t.buf "fifth_letter" = .ok (.str on) ∧ t' = { t with bits := 0, bitsLeft := 0 } := by
  have e : Homebrew.readFifthLetter t = (.ok (some (.str on)), t') := by
    have : Homebrew.readFifthLetter = (Homebrew2015.computeFifthLetter >>= fun v => Pure.pure (some (PyVal.str v))) := by
      unfold Homebrew.readFifthLetter Homebrew2015.computeFifthLetter
      funext s
      simp only [Bind.bind, Rd.bind, posIo, seekIo, Pure.pure, Rd.pure]
      rcases decodeWith decodeAscii (readBytes 1) { s with pos := 4 } with ⟨_ | _, _⟩ <;> rfl
    rw [this]
    show Rd.bind _ _ t = _
    unfold Rd.bind
    rw [h]
    rfl
  have e := (peek_eq 4 1 (fun raw => match decodeAscii raw with | some s => .ok s | none => .error .unicode)
    (fun v => some (PyVal.str v)) t).symm.trans ((readFifth_eq t).symm.trans e)
  rw [← fifth_eq]
  by_cases hl : 4 + 1 ≤ t.buf.length
  · rw [if_pos (.inl hl)] at e
    rw [if_pos hl]
    cases hd : decodeAscii ((t.buf.drop 4).take 1) <;> rw [hd] at e <;> cases e
    exact ⟨rfl, rfl⟩
  · rw [if_neg (by omega)] at e
    cases e

theorem id_letter {t t3 s : Stream} {on : PyStr} {r : Nat} (hon : fifthLetterValue t.buf "fifth_letter" = .ok (.str on))
    (hp : t3.pos = 4) (hb : t3.buf = t.buf) (h : readU4be t3 = (.ok r, s)) :
    fifthLetterValue t.buf "fifth_letter" = .ok (.str [Char.ofNat (r / 2 ^ 24)]) := by
  simp only [readU4be, readBytes, alignToByte, readBytesNotAligned, Bind.bind, Rd.bind, hp, hb, Pure.pure, Rd.pure] at h
  split at h
  · rename_i raw s1 hraw
    split at hraw
    · rename_i hl
      cases hraw
      cases h
      simp only [List.length_take, List.length_drop] at hl
      have h5 : 8 ≤ t.buf.length := by omega
      simp only [fifthLetterValue, if_pos, List.getElem?_eq_getElem (by omega : 4 < t.buf.length)] at hon ⊢
      split at hon
      · rename_i hc
        rw [if_pos hc]
        have : u32be ((t.buf.drop 4).take 4) 0 / 2 ^ 24 = (t.buf[4]).toNat := by
          rw [List.drop_eq_getElem_cons (by omega : 4 < t.buf.length), List.take_succ_cons]
          generalize (t.buf.drop 5).take 3 = l
          have h1 := u8_lt (t.buf[4] :: l) 1
          have h2 := u8_lt (t.buf[4] :: l) 2
          have h3 := u8_lt (t.buf[4] :: l) 3
          have h0 : u8 (t.buf[4] :: l) 0 = (t.buf[4]).toNat := rfl
          simp only [u32be, Nat.zero_add]
          omega
        rw [this]
      · cases hon
    · cases hraw
  · cases h


theorem homebrew_letter {io io' : Stream} {x : Homebrew2015} (h0 : io.pos = 0) (hr : Homebrew2015.read io = (.ok x, io')) (v : PyVal)
    (hv : x.command_data.bind Homebrew2015.CommandDataUnion.fifthLetter = some v) : fifthLetterValue io.buf "fifth_letter" = .ok v := by
  unfold Homebrew2015.read at hr
  obtain ⟨cmd, t, k, hr⟩ := of_bind_ok hr
  obtain ⟨d, t2, k2, hr⟩ := of_bind_ok hr
  cases hr
  have ht : t.pos = 4 ∧ t.buf = io.buf ∧ 4 ≤ io.buf.length := by
    unfold decodeWith at k
    obtain ⟨raw, t1, k1, k⟩ := of_bind_ok k
    have e : t = t1 := by
      cases hd : decodeUtf8 raw <;> rw [hd] at k <;> cases k
      rfl
    simp only [readBytes, alignToByte, readBytesNotAligned, Bind.bind, Rd.bind, h0] at k1
    split at k1
    · rename_i hl
      cases k1
      subst e
      simp only [List.length_take, List.length_drop] at hl ⊢
      exact ⟨by omega, trivial, by omega⟩
    · cases k1
  obtain ⟨ht, hbuf, hlen⟩ := ht
  unfold Homebrew2015.readCommandData at k2
  by_cases g0 : cmd = "RPTL".toList
  · rw [if_pos g0] at k2
    obtain ⟨_, _, _, k2⟩ := of_bind_ok k2
    cases k2
    cases hv
  rw [if_neg g0] at k2
  by_cases g1 : cmd = "MSTA".toList
  · rw [if_pos g1] at k2
    obtain ⟨_, _, _, k2⟩ := of_bind_ok k2
    cases k2
    cases hv
  rw [if_neg g1] at k2
  by_cases g2 : cmd = "RPTK".toList
  · rw [if_pos g2] at k2
    obtain ⟨_, _, _, k2⟩ := of_bind_ok k2
    cases k2
    cases hv
  rw [if_neg g2] at k2
  by_cases g3 : cmd = "RPTC".toList
  · rw [if_pos g3] at k2
    obtain ⟨y, _, k3, k2⟩ := of_bind_ok k2
    cases k2
    unfold Homebrew2015.TypeRepeaterConfigurationOrClosing.read at k3
    obtain ⟨on, t3, k4, k3⟩ := of_bind_ok k3
    obtain ⟨z, _, k5, k3⟩ := of_bind_ok k3
    cases k3
    obtain ⟨hon, ht3⟩ := letter_of (show Homebrew2015.computeFifthLetter t = _ from k4)
    rw [← hbuf]
    unfold Homebrew2015.TypeRepeaterConfigurationOrClosing.readData at k5
    by_cases hL : on = "L".toList
    · rw [if_pos hL] at k5
      obtain ⟨_, _, _, k5⟩ := of_bind_ok k5
      cases k5
      cases hv
      rw [hon, hL]
      rfl
    · rw [if_neg hL] at k5
      obtain ⟨w, _, k6, k5⟩ := of_bind_ok k5
      cases k5
      cases hv
      unfold Homebrew2015.TypeRepeaterConfiguration.read at k6
      obtain ⟨r, _, k7, k6⟩ := of_bind_ok k6
      have hr : w.repeater_id = r := by
        repeat (obtain ⟨_, _, _, k6⟩ := of_bind_ok k6)
        cases k6
        rfl
      rw [hr]
      exact id_letter hon (by rw [ht3]; exact ht) (by rw [ht3]) k7
  rw [if_neg g3] at k2
  by_cases g4 : cmd = "DMRD".toList
  · rw [if_pos g4] at k2
    obtain ⟨_, _, _, k2⟩ := of_bind_ok k2
    cases k2
    cases hv
  rw [if_neg g4] at k2
  by_cases g5 : cmd = "MSTC".toList
  · rw [if_pos g5] at k2
    obtain ⟨_, _, _, k2⟩ := of_bind_ok k2
    cases k2
    cases hv
  rw [if_neg g5] at k2
  by_cases g6 : cmd = "RPTP".toList
  · rw [if_pos g6] at k2
    obtain ⟨_, _, _, k2⟩ := of_bind_ok k2
    cases k2
    cases hv
  rw [if_neg g6] at k2
  by_cases g7 : cmd = "MSTP".toList
  · rw [if_pos g7] at k2
    obtain ⟨_, _, _, k2⟩ := of_bind_ok k2
    cases k2
    cases hv
  rw [if_neg g7] at k2
  by_cases g8 : cmd = "MSTN".toList
  · rw [if_pos g8] at k2
    obtain ⟨_, _, _, k2⟩ := of_bind_ok k2
    cases k2
    cases hv
  rw [if_neg g8] at k2
  cases k2
  cases hv

theorem homebrew_fresh : FreshHonest ⟨⟨"Homebrew2015", _, Homebrew2015.read, Homebrew2015.toPy, Homebrew2015.getters⟩, fun _ => fifthLetterValue⟩ := by
  intro io x io' hr h0
  have h0 := h0 (by decide)
  have hc : ((⟨"Homebrew2015", _, Homebrew2015.read, Homebrew2015.toPy, Homebrew2015.getters⟩ : LazyClass).view x).caches =
      PyVal.optAttr "_m_fifth_letter" (x.command_data.bind Homebrew2015.CommandDataUnion.fifthLetter) := by
    dsimp only
    unfold Homebrew2015.toPy
    simp (discharger := decide +kernel) only [caches_object, List.map_cons, List.map_nil, filter_attr, filter_optAttr,
      filter_optAttr', List.flatten_cons, List.flatten_nil, List.append_nil, List.nil_append]
  cases hv : x.command_data.bind Homebrew2015.CommandDataUnion.fifthLetter with
  | none =>
    refine honest_nil ?_ _
    rw [hc, hv]; rfl
  | some v =>
    refine honest_one (p := "fifth_letter") (v := v) ?_ (homebrew_letter h0 hr v hv)
    rw [hc, hv]; rfl


theorem mmdvm_letter {io io' : Stream} {x : Mmdvm2020} (h0 : io.pos = 0) (hr : Mmdvm2020.read io = (.ok x, io')) (v : PyVal)
    (hv : x.command_data.bind Mmdvm2020.CommandDataUnion.fifthLetter = some v) : fifthLetterValue io.buf "fifth_letter" = .ok v := by
  unfold Mmdvm2020.read at hr
  obtain ⟨cmd, t, k, hr⟩ := of_bind_ok hr
  obtain ⟨d, t2, k2, hr⟩ := of_bind_ok hr
  cases hr
  have ht : t.pos = 4 ∧ t.buf = io.buf ∧ 4 ≤ io.buf.length := by
    unfold decodeWith at k
    obtain ⟨raw, t1, k1, k⟩ := of_bind_ok k
    have e : t = t1 := by
      cases hd : decodeAscii raw <;> rw [hd] at k <;> cases k
      rfl
    simp only [readBytes, alignToByte, readBytesNotAligned, Bind.bind, Rd.bind, h0] at k1
    split at k1
    · rename_i hl
      cases k1
      subst e
      simp only [List.length_take, List.length_drop] at hl ⊢
      exact ⟨by omega, trivial, by omega⟩
    · cases k1
  obtain ⟨ht, hbuf, hlen⟩ := ht
  unfold Mmdvm2020.readCommandData at k2
  by_cases g0 : cmd = "RPTL".toList
  · rw [if_pos g0] at k2
    obtain ⟨_, _, _, k2⟩ := of_bind_ok k2
    cases k2
    cases hv
  rw [if_neg g0] at k2
  by_cases g1 : cmd = "DMRG".toList
  · rw [if_pos g1] at k2
    obtain ⟨_, _, _, k2⟩ := of_bind_ok k2
    cases k2
    cases hv
  rw [if_neg g1] at k2
  by_cases g2 : cmd = "RPTA".toList
  · rw [if_pos g2] at k2
    obtain ⟨_, _, _, k2⟩ := of_bind_ok k2
    cases k2
    cases hv
  rw [if_neg g2] at k2
  by_cases g3 : cmd = "RPTK".toList
  · rw [if_pos g3] at k2
    obtain ⟨_, _, _, k2⟩ := of_bind_ok k2
    cases k2
    cases hv
  rw [if_neg g3] at k2
  by_cases g4 : cmd = "RPTC".toList
  · rw [if_pos g4] at k2
    obtain ⟨y, _, k3, k2⟩ := of_bind_ok k2
    cases k2
    unfold Mmdvm2020.TypeRepeaterConfigurationOrClosing.read at k3
    obtain ⟨on, t3, k4, k3⟩ := of_bind_ok k3
    obtain ⟨z, _, k5, k3⟩ := of_bind_ok k3
    cases k3
    obtain ⟨hon, ht3⟩ := letter_of (show Mmdvm2020.computeFifthLetter t = _ from k4)
    rw [← hbuf]
    unfold Mmdvm2020.TypeRepeaterConfigurationOrClosing.readData at k5
    by_cases hL : on = "L".toList
    · rw [if_pos hL] at k5
      obtain ⟨_, _, _, k5⟩ := of_bind_ok k5
      cases k5
      cases hv
      rw [hon, hL]
      rfl
    · rw [if_neg hL] at k5
      obtain ⟨w, _, k6, k5⟩ := of_bind_ok k5
      cases k5
      cases hv
      unfold Mmdvm2020.TypeRepeaterConfiguration.read at k6
      obtain ⟨r, _, k7, k6⟩ := of_bind_ok k6
      have hr : w.repeater_id = r := by
        repeat (obtain ⟨_, _, _, k6⟩ := of_bind_ok k6)
        cases k6
        rfl
      rw [hr]
      exact id_letter hon (by rw [ht3]; exact ht) (by rw [ht3]) k7
  rw [if_neg g4] at k2
  by_cases g5 : cmd = "DMRD".toList
  · rw [if_pos g5] at k2
    obtain ⟨_, _, _, k2⟩ := of_bind_ok k2
    cases k2
    cases hv
  rw [if_neg g5] at k2
  by_cases g6 : cmd = "MSTC".toList
  · rw [if_pos g6] at k2
    obtain ⟨_, _, _, k2⟩ := of_bind_ok k2
    cases k2
    cases hv
  rw [if_neg g6] at k2
  by_cases g7 : cmd = "RPTP".toList
  · rw [if_pos g7] at k2
    obtain ⟨_, _, _, k2⟩ := of_bind_ok k2
    cases k2
    cases hv
  rw [if_neg g7] at k2
  by_cases g8 : cmd = "RPTO".toList
  · rw [if_pos g8] at k2
    obtain ⟨_, _, _, k2⟩ := of_bind_ok k2
    cases k2
    cases hv
  rw [if_neg g8] at k2
  by_cases g9 : cmd = "MSTP".toList
  · rw [if_pos g9] at k2
    obtain ⟨_, _, _, k2⟩ := of_bind_ok k2
    cases k2
    cases hv
  rw [if_neg g9] at k2
  by_cases g10 : cmd = "RPTS".toList
  · rw [if_pos g10] at k2
    obtain ⟨_, _, _, k2⟩ := of_bind_ok k2
    cases k2
    cases hv
  rw [if_neg g10] at k2
  by_cases g11 : cmd = "MSTN".toList
  · rw [if_pos g11] at k2
    obtain ⟨_, _, _, k2⟩ := of_bind_ok k2
    cases k2
    cases hv
  rw [if_neg g11] at k2
  by_cases g12 : cmd = "DMRA".toList
  · rw [if_pos g12] at k2
    obtain ⟨_, _, _, k2⟩ := of_bind_ok k2
    cases k2
    cases hv
  rw [if_neg g12] at k2
  cases k2
  cases hv

theorem mmdvm_fresh : FreshHonest ⟨⟨"Mmdvm2020", _, Mmdvm2020.read, Mmdvm2020.toPy, Mmdvm2020.getters⟩, fun _ => fifthLetterValue⟩ := by
  intro io x io' hr h0
  have h0 := h0 (by decide)
  have hc : ((⟨"Mmdvm2020", _, Mmdvm2020.read, Mmdvm2020.toPy, Mmdvm2020.getters⟩ : LazyClass).view x).caches =
      PyVal.optAttr "_m_fifth_letter" (x.command_data.bind Mmdvm2020.CommandDataUnion.fifthLetter) := by
    dsimp only
    unfold Mmdvm2020.toPy
    simp (discharger := decide +kernel) only [caches_object, List.map_cons, List.map_nil, filter_attr, filter_optAttr,
      filter_optAttr', List.flatten_cons, List.flatten_nil, List.append_nil, List.nil_append]
  cases hv : x.command_data.bind Mmdvm2020.CommandDataUnion.fifthLetter with
  | none =>
    refine honest_nil ?_ _
    rw [hc, hv]; rfl
  | some v =>
    refine honest_one (p := "fifth_letter") (v := v) ?_ (mmdvm_letter h0 hr v hv)
    rw [hc, hv]; rfl

theorem lazySpecs_fresh : ∀ s ∈ lazySpecs, FreshHonest s := by
  simp only [lazySpecs, List.forall_mem_cons]
  exact ⟨radioIp_fresh, radioId_fresh, gpsdata_fresh, ipsc_fresh, rtp_fresh, telemetry_fresh, optionSumLen_fresh,
    location_fresh, sequence_fresh, ackSequence_fresh, pduType_fresh, homebrew_fresh, mmdvm_fresh, shortRaw_fresh,
    shortStatus_fresh, shortDefined_fresh, dataHeader_fresh, by simp⟩

end Properties

/-- `x` has been decoded from somewhere in a stream over `buf` (Homebrew packets: from its beginning) and has not been used since. -/
def Subject.JustDecoded (x : Subject) (buf : Bytes) : Prop :=
  ∃ io io', io.buf = buf ∧ (x.spec.cls.name ∈ ["Homebrew2015", "Mmdvm2020"] → io.pos = 0) ∧
    x.spec.cls.read io = (.ok x.obj.attrs, io') ∧ x.obj = x.spec.cls.fresh x.obj.attrs

/-- **C55.** The same for objects that were decoded from the stream: the caches that decoding itself created need no assumption. -/
theorem C55_decoded (subs : List Subject) (io : Stream) (schedule : List (Nat × String))
    (known : ∀ x ∈ subs, x.spec ∈ lazySpecs) (decoded : ∀ x ∈ subs, x.JustDecoded io.buf) :
    ∃ (subs' : List Subject) (io' : Stream), accessAll (subs.map Subject.toInstance) io schedule =
        (schedule.map (expectedOutcome subs io.buf), subs'.map Subject.toInstance, io') ∧
      subs'.map Subject.attributes = subs.map Subject.attributes ∧ (∀ x ∈ subs', x.Honest io.buf) ∧ io'.buf = io.buf ∧
      ((∀ a ∈ schedule, (expectedOutcome subs io.buf a).toBool = true) → io'.pos = io.pos) := by
  refine C55_interleaved subs io schedule known fun x hx => ?_
  obtain ⟨t, t', hb, h0, hr, hf⟩ := decoded x hx
  have := Properties.lazySpecs_fresh x.spec (known x hx) t x.obj.attrs t' hr h0
  rw [← hf, hb] at this
  exact this

/-! ### Three objects on one stream -/

namespace Properties

/-- A radio id and a telemetry message behind it. -/
def sharedBytes : Bytes := [0x00, 0x0A, 0x2D, 0x00, 0x80, 0x01, 0x00, 0x01]

/-- The class of radio ids. -/
def radioIdSpec : LazySpec := ⟨⟨"RadioId", _, RadioId.read, RadioId.toPy, RadioId.getters⟩, radioIdValue⟩
/-- The class of telemetry messages. -/
def telemetrySpec : LazySpec :=
  ⟨⟨"TelemetryProtocol", _, TelemetryProtocol.read, TelemetryProtocol.toPy, TelemetryProtocol.getters⟩, telemetryValue⟩
/-- The class of location messages. -/
def locationSpec : LazySpec :=
  ⟨⟨"LocationProtocol", _, LocationProtocol.read, LocationProtocol.toPy, LocationProtocol.getters⟩, locationValue⟩

/-- The radio id, the telemetry message, and the same bytes decoded as a location message. While it was decoded, the second object has
cached the first two bytes of the stream, which are not those of the message (C09). -/
def sharedObjects : List Subject :=
  [⟨radioIdSpec, ⟨⟨0x002D0A00⟩, []⟩⟩,
   ⟨telemetrySpec, ⟨⟨.raw 0x80, 1, 1, .raw 0x000A, none⟩, [("_m_specific_service", .int 10)]⟩⟩,
   ⟨locationSpec, ⟨⟨.raw 0x8001, 1, none⟩, []⟩⟩]

/-- Accesses in no particular order, some repeated, one to a property that there is not. -/
def sharedSchedule : List (Nat × String) :=
  [(2, "opcode"), (1, "specific_service"), (0, "radio_id"), (2, "opcode"), (0, "opcode"), (1, "specific_service"), (0, "radio_id")]

set_option maxRecDepth 8000 in
example : (∀ x ∈ sharedObjects, x.spec ∈ lazySpecs) ∧ (∀ x ∈ sharedObjects, x.JustDecoded sharedBytes) ∧
    sharedSchedule.map (expectedOutcome sharedObjects sharedBytes) =
      [.ok (.int 0), .ok (.int 10), .ok (.int 0x2D0A), .ok (.int 0), .error .attribute, .ok (.int 10), .ok (.int 0x2D0A)] := by
  refine ⟨?_, ?_, rfl⟩
  · simp only [sharedObjects, List.forall_mem_cons]
    exact ⟨List.mem_of_getElem? (i := 1) rfl, List.mem_of_getElem? (i := 5) rfl, List.mem_of_getElem? (i := 7) rfl, by simp⟩
  · simp only [sharedObjects, List.forall_mem_cons]
    exact ⟨⟨⟨sharedBytes, 0, 0, 0⟩, _, rfl, fun _ => rfl, rfl, rfl⟩,
      ⟨⟨sharedBytes, 4, 0, 0⟩, _, rfl, by decide, rfl, rfl⟩,
      ⟨⟨sharedBytes, 4, 0, 0⟩, _, rfl, by decide, rfl, rfl⟩, by simp⟩

/-- An access that raises may leave the stream somewhere else: this packet has no fifth letter but a fifth byte. -/
example :
    let x : Instance := ⟨⟨"Homebrew2015", _, Homebrew2015.read, Homebrew2015.toPy, Homebrew2015.getters⟩, ⟨⟨"RPTO".toList, none⟩, []⟩⟩
    let io : Stream := ⟨[0x52, 0x50, 0x54, 0x4F, 0xFF, 0x00], 4, 0, 0⟩
    (accessAll [x] io [(0, "fifth_letter")]).1 = [.error .unicode] ∧ (accessAll [x] io [(0, "fifth_letter")]).2.2.pos = 5 :=
  ⟨rfl, rfl⟩

end Properties
end Dmr
