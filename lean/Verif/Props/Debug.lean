import Verif.Model.Tools.Debug
import Verif.Props.Byteswap
import Verif.Props.Prettyprint
import Verif.Props.PrettyprintLibrary
import Verif.Props.Lazy
/-
Property C46: the command line tools.
-/

namespace Dmr.Tools

open Spec Hytera

/-! ### Specification -/

/-- `c` is the hexadecimal digit of value `n`. -/
def IsHexDigit (c : Char) (n : Nat) : Prop :=
  "0123456789abcdef".toList[n]? = some c ∨ "0123456789ABCDEF".toList[n]? = some c

/-- `HexText s b`: the text `s` denotes the bytes `b`: two digits a byte, with ASCII white space anywhere except within a byte. -/
inductive HexText : PyStr → Bytes → Prop where
  | nil : HexText [] []
  | space {c : Char} {s : PyStr} {b : Bytes} :
      c ∈ [' ', '\t', '\n', '\r', '\x0b', '\x0c'] → HexText s b → HexText (c :: s) b
  | byte {c d : Char} {h l : Nat} {s : PyStr} {b : Bytes} :
      IsHexDigit c h → IsHexDigit d l → HexText s b → HexText (c :: d :: s) (UInt8.ofNat (16 * h + l) :: b)

/-- The class each tool is for, and the object `from_bytes` of that class makes of the bytes. For an IPSC packet the four derived
attributes have been computed. -/
def decodedBy : Tool → Bytes → Except PyErr PyVal
  | .hytera_rrs, b => (fromBytes RadioRegistrationService.read b).map (·.toPy)
  | .hytera_tmp, b => (fromBytes TextMessageProtocol.read b).map (·.toPy)
  | .hytera_ipsc, b => (fromBytes IpSiteConnectProtocol.read b).map fun x =>
      (IpSiteConnectProtocol.Obj.mk x [("_m_source_radio_id", ipscDerived b .source_radio_id),
        ("_m_destination_radio_id", ipscDerived b .destination_radio_id), ("_m_color_code", ipscDerived b .color_code),
        ("_m_is_wakeup", ipscDerived b .is_wakeup)]).toPy
  | .hytera_rcp, b => (fromBytes RadioControlProtocol.read b).map (·.toPy)
  | .hytera_dds, b => (fromBytes DataDeliveryStates.read b).map (·.toPy)
  | .hytera_hdap, b => (fromBytes HyteraDmrApplicationProtocol.read b).map (·.toPy)
  | .hytera_hrnp, b => (fromBytes HyteraRadioNetworkProtocol.read b).map (·.toPy)
  | .hytera_hstrp, b => (fromBytes HyteraSimpleTransportReliabilityProtocol.read b).map (·.toPy)
  | .hytera_lp, b => (fromBytes LocationProtocol.read b).map (·.toPy)
  | .hytera_dtp, b => (fromBytes DataTransmitProtocol.read b).map (·.toPy)
  | .hytera_tp, b => (fromBytes TelemetryProtocol.read b).map (·.toPy)
  | .homebrew, b => (fromBytes Homebrew.Homebrew2015.read b).map (·.toPy)
  | .mmdvm, b => (fromBytes Homebrew.Mmdvm2020.read b).map (·.toPy)
  | .motorola_ars, b => (fromBytes Motorola.AutomaticRegistrationService.read b).map (·.toPy)
  | .motorola_tmp, b => (fromBytes Motorola.TextMessageProtocol.read b).map (·.toPy)

/-- The payload line of an IPSC packet: 66 lower case digits, for the bytes at offset 26 with neighbours exchanged, without the
last. -/
def IsPayloadLine (b : Bytes) (line : PyStr) : Prop :=
  ∃ digits swapped, line = "DMR DATA: ".toList ++ digits ∧ digits.length = 66 ∧
    (∀ c ∈ digits, c ∈ "0123456789abcdef".toList) ∧ HexText digits swapped ∧
    swapped.length = 33 ∧ ∀ i, i < 33 → swapped[i]? = b[26 + (i ^^^ 1)]?

/-- `Accepted tool msg out`: the tool accepts the message and writes `out` for it: the object, and for an IPSC packet whose slot
type (bytes 18 and 19) is not EE EE the payload line. -/
def Accepted (tool : Tool) (msg : PyStr) (out : List Output) : Prop :=
  ∃ b v d, HexText msg b ∧ decodedBy tool b = .ok v ∧ Printed v d ∧
    if tool = .hytera_ipsc ∧ ¬ (u8 b 18 = 0xEE ∧ u8 b 19 = 0xEE) then
      ∃ line, IsPayloadLine b line ∧ out = [.pprint d, .line line]
    else out = [.pprint d]

/-- `Rejected tool msg e`: the message is not hexadecimal (ValueError), or the class does not decode it. -/
def Rejected (tool : Tool) (msg : PyStr) (e : PyErr) : Prop :=
  ((∀ b, ¬ HexText msg b) ∧ e = .value) ∨ ∃ b, HexText msg b ∧ decodedBy tool b = .error e

/-! ### Hexadecimal text -/

theorem hexDigit_iff (c : Char) (n : Nat) : hexDigit c = some n ↔ IsHexDigit c n := by
  constructor
  · intro h
    unfold hexDigit at h
    have cc : ∀ k : Nat, c.toNat = k → c = Char.ofNat k := fun k hk => by rw [← hk]; exact (Char.ofNat_toNat c).symm
    split at h
    · rename_i hr
      have h1 : 48 ≤ c.toNat := hr.1
      have h2 : c.toNat ≤ 57 := hr.2
      cases h
      obtain ⟨k, hk, hk'⟩ : ∃ k, k ≤ 9 ∧ c.toNat = 48 + k := ⟨c.toNat - 48, by omega, by omega⟩
      rw [hk', cc _ hk']
      left
      have : k = 0 ∨ k = 1 ∨ k = 2 ∨ k = 3 ∨ k = 4 ∨ k = 5 ∨ k = 6 ∨ k = 7 ∨ k = 8 ∨ k = 9 := by omega
      rcases this with rfl | rfl | rfl | rfl | rfl | rfl | rfl | rfl | rfl | rfl <;> decide
    · split at h
      · rename_i hr
        have h1 : 97 ≤ c.toNat := hr.1
        have h2 : c.toNat ≤ 102 := hr.2
        cases h
        obtain ⟨k, hk, hk'⟩ : ∃ k, k ≤ 5 ∧ c.toNat = 97 + k := ⟨c.toNat - 97, by omega, by omega⟩
        rw [hk', cc _ hk']
        left
        have : k = 0 ∨ k = 1 ∨ k = 2 ∨ k = 3 ∨ k = 4 ∨ k = 5 := by omega
        rcases this with rfl | rfl | rfl | rfl | rfl | rfl <;> decide
      · split at h
        · rename_i hr
          have h1 : 65 ≤ c.toNat := hr.1
          have h2 : c.toNat ≤ 70 := hr.2
          cases h
          obtain ⟨k, hk, hk'⟩ : ∃ k, k ≤ 5 ∧ c.toNat = 65 + k := ⟨c.toNat - 65, by omega, by omega⟩
          rw [hk', cc _ hk']
          right
          have : k = 0 ∨ k = 1 ∨ k = 2 ∨ k = 3 ∨ k = 4 ∨ k = 5 := by omega
          rcases this with rfl | rfl | rfl | rfl | rfl | rfl <;> decide
        · cases h
  · intro h
    have hn : n < 16 := by
      rcases h with h | h <;> exact (List.getElem?_eq_some_iff.1 h).1
    have : n = 0 ∨ n = 1 ∨ n = 2 ∨ n = 3 ∨ n = 4 ∨ n = 5 ∨ n = 6 ∨ n = 7 ∨ n = 8 ∨ n = 9 ∨ n = 10 ∨ n = 11 ∨ n = 12 ∨ n = 13 ∨
      n = 14 ∨ n = 15 := by omega
    rcases this with rfl | rfl | rfl | rfl | rfl | rfl | rfl | rfl | rfl | rfl | rfl | rfl | rfl | rfl | rfl | rfl <;>
      rcases h with h | h <;> cases h <;> decide

theorem isSpace_iff (c : Char) : isSpace c = true ↔ c ∈ [' ', '\t', '\n', '\r', '\x0b', '\x0c'] := by
  simp only [isSpace, Bool.or_eq_true, beq_iff_eq, List.mem_cons, List.not_mem_nil, or_false]
  tauto

theorem space_not_digit {c : Char} (h : isSpace c = true) : hexDigit c = none := by
  rw [isSpace_iff] at h
  simp only [List.mem_cons, List.not_mem_nil, or_false] at h
  rcases h with rfl | rfl | rfl | rfl | rfl | rfl <;> decide

theorem fromHex_of_text {s : PyStr} {b : Bytes} (h : HexText s b) : fromHex s = .ok b := by
  induction h with
  | nil => rfl
  | @space c s b hc _ ih =>
    have hc' := (isSpace_iff c).2 hc
    cases s with
    | nil => cases ih; rw [fromHex, if_pos hc']
    | cons d r => rw [fromHex, if_pos hc', ih]
  | @byte c d h l s b hc hd _ ih =>
    rw [← hexDigit_iff] at hc hd
    have : ¬ isSpace c = true := fun hs => by rw [space_not_digit hs] at hc; cases hc
    rw [fromHex, if_neg this, hc, hd]
    simp only [ih]

theorem text_of_fromHex : ∀ (n : Nat) (s : PyStr), s.length ≤ n →
    (∀ b, fromHex s = .ok b → HexText s b) ∧ ∀ e, fromHex s = .error e → e = .value
  | _, [], _ => ⟨fun b h => by cases h; exact .nil, fun e h => by cases h⟩
  | _, [c], _ => by
    rw [fromHex]
    split
    · rename_i hs
      exact ⟨fun b h => by cases h; exact .space ((isSpace_iff c).1 hs) .nil, fun e h => by cases h⟩
    · exact ⟨fun b h => (by cases h), fun e h => (by cases h; rfl)⟩
  | 0, _ :: _ :: _, h => by simp at h
  | n + 1, c :: d :: rest, hn => by
    simp only [List.length_cons] at hn
    rw [fromHex]
    split
    · rename_i hs
      obtain ⟨h1, h2⟩ := text_of_fromHex n (d :: rest) (by simp only [List.length_cons]; omega)
      exact ⟨fun b h => .space ((isSpace_iff c).1 hs) (h1 b h), h2⟩
    · obtain ⟨h1, h2⟩ := text_of_fromHex n rest (by omega)
      split
      · rename_i a1 a2 hc hd
        cases hf : fromHex rest with
        | ok bs =>
          exact ⟨fun b h => by cases h; exact .byte ((hexDigit_iff _ _).1 hc) ((hexDigit_iff _ _).1 hd) (h1 _ hf),
            fun e h => by cases h⟩
        | error e => exact ⟨fun b h => (by cases h), fun e' h => (by cases h; exact h2 _ hf)⟩
      · exact ⟨fun b h => (by cases h), fun e h => (by cases h; rfl)⟩

/-- C46: which texts are messages, and the bytes they denote; everything else is a ValueError. -/
theorem C46_hex (s : PyStr) :
    (∀ b, fromHex s = .ok b ↔ HexText s b) ∧ ∀ e, fromHex s = .error e ↔ (∀ b, ¬ HexText s b) ∧ e = .value := by
  obtain ⟨h1, h2⟩ := text_of_fromHex s.length s (Nat.le_refl _)
  refine ⟨fun b => ⟨h1 b, fromHex_of_text⟩, fun e => ⟨fun h => ⟨fun b hb => ?_, h2 e h⟩, fun ⟨h, he⟩ => ?_⟩⟩
  · rw [fromHex_of_text hb] at h; cases h
  · cases hf : fromHex s with
    | ok b => exact absurd (h1 b hf) (h b)
    | error e' => rw [he, h2 e' hf]

theorem hexChar_digit : ∀ n, n < 16 → "0123456789abcdef".toList[n]? = some (hexChar n) := by decide

theorem toHex_text : ∀ (b : Bytes), HexText (toHex b) b ∧ (toHex b).length = 2 * b.length ∧
    ∀ c ∈ toHex b, c ∈ "0123456789abcdef".toList
  | [] => ⟨.nil, rfl, by simp [toHex]⟩
  | x :: b => by
    obtain ⟨h1, h2, h3⟩ := toHex_text b
    have hx := x.toNat_lt
    have d1 := hexChar_digit (x.toNat / 16) (by omega)
    have d2 := hexChar_digit (x.toNat % 16) (by omega)
    have he : toHex (x :: b) = hexChar (x.toNat / 16) :: hexChar (x.toNat % 16) :: toHex b := by
      simp [toHex]
    have hv : x = UInt8.ofNat (16 * (x.toNat / 16) + x.toNat % 16) := by
      rw [Nat.div_add_mod]; simp
    refine ⟨?_, by rw [he]; simp only [List.length_cons, h2]; omega, ?_⟩
    · rw [he]
      conv => arg 2; rw [hv]
      exact .byte (.inl d1) (.inl d2) h1
    · rw [he]
      intro c hc
      rcases List.mem_cons.1 hc with rfl | hc
      · exact List.mem_of_getElem? d1
      rcases List.mem_cons.1 hc with rfl | hc
      · exact List.mem_of_getElem? d2
      · exact h3 c hc

/-! ### One message -/

theorem prettyprint_printed {v d : PyVal} (h : LibraryObject v) : prettyprint v = .ok d ↔ Printed v d := by
  obtain ⟨cls, attrs, items, rfl, h1, _, _⟩ := C45_library v h
  obtain ⟨items', h1', h2, _⟩ := C45_structure cls attrs
  rw [h1] at h1'
  cases h1'
  rw [h1, h2 d]
  exact ⟨fun h => by cases h; rfl, fun h => by rw [h]⟩

theorem printed_total (v : PyVal) : ∃ d, Printed v d := ⟨_, printed_pretty v⟩

theorem accesses_four {b : Bytes} {x : IpSiteConnectProtocol} (h : fromBytes IpSiteConnectProtocol.read b = .ok x) :
    (IpSiteConnectProtocol.Obj.accesses ⟨x, []⟩
      [.source_radio_id, .destination_radio_id, .color_code, .is_wakeup]).2 =
      ⟨x, [("_m_source_radio_id", ipscDerived b .source_radio_id),
        ("_m_destination_radio_id", ipscDerived b .destination_radio_id), ("_m_color_code", ipscDerived b .color_code),
        ("_m_is_wakeup", ipscDerived b .is_wakeup)]⟩ := by
  obtain ⟨_, h2, h3⟩ := C20_history h [.source_radio_id, .destination_radio_id, .color_code, .is_wakeup]
  simp only [cachesAfter, List.mem_cons, List.not_mem_nil, reduceCtorEq, if_false, or_self,
    IpSiteConnectProtocol.Property.cache] at h3
  generalize (IpSiteConnectProtocol.Obj.accesses ⟨x, []⟩ _).2 = o at h2 h3
  cases o
  simp only at h2 h3
  rw [h2, h3]

/-- What the loop does with one message. -/
def once (tool : Tool) (msg : PyStr) : List Output × Except PyErr Unit :=
  match fromHex msg with
  | .error e => ([], .error e)
  | .ok b =>
    match tool.fromBytes b with
    | .error e => ([], .error e)
    | .ok x => showDecoded x

theorem once_other {tool : Tool} {msg : PyStr} {b : Bytes} {v d : PyVal} (hm : HexText msg b)
    (hv : tool.fromBytes b = .ok (.other v)) (hl : LibraryObject v) (hd : Printed v d) :
    once tool msg = ([.pprint d], .ok ()) := by
  rw [once, fromHex_of_text hm]
  simp only [hv, showDecoded]
  rw [(prettyprint_printed hl).2 hd]

theorem payload_line (b : Bytes) (h : 72 ≤ b.length) :
    ∃ swapped, byteswapBytes (slice b 26 34) = .ok swapped ∧ IsPayloadLine b ("DMR DATA: ".toList ++ toHex swapped) := by
  have hl : (slice b 26 34).length = 34 := by simp only [slice, List.length_take, List.length_drop]; omega
  obtain ⟨out, h1, h2, h3⟩ := C44_bytes (slice b 26 34)
  rw [hl] at h2 h3
  obtain ⟨t1, t2, t3⟩ := toHex_text out
  refine ⟨out, h1, toHex out, out, rfl, by omega, t3, t1, h2, fun i hi => ?_⟩
  obtain ⟨a1, a2⟩ := h3 i (by omega)
  rw [a2, slice, List.getElem?_take, if_pos a1, List.getElem?_drop]

theorem ipsc_fields {b : Bytes} {x : IpSiteConnectProtocol} (h : fromBytes IpSiteConnectProtocol.read b = .ok x) :
    72 ≤ b.length ∧ x.ipsc_payload = slice b 26 34 ∧
      (x.slot_type = .known .slot_type_sync ↔ u8 b 18 = 0xEE ∧ u8 b 19 = 0xEE) := by
  rw [C19_layout] at h
  split at h
  · cases h
  split at h
  · cases h
  split at h
  · cases h
  rename_i h72
  cases h
  refine ⟨by omega, rfl, ?_⟩
  have h1 := u8_lt b 18
  have h2 := u8_lt b 19
  rw [resolveEnum_eq_known]
  show u16be b 18 = 61166 ↔ _
  simp only [u16be, Nat.reduceAdd]
  omega

theorem once_ipsc {msg : PyStr} {b : Bytes} {x : IpSiteConnectProtocol} {d : PyVal} (hm : HexText msg b)
    (hx : fromBytes IpSiteConnectProtocol.read b = .ok x)
    (hd : Printed (IpSiteConnectProtocol.Obj.mk x [("_m_source_radio_id", ipscDerived b .source_radio_id),
        ("_m_destination_radio_id", ipscDerived b .destination_radio_id), ("_m_color_code", ipscDerived b .color_code),
        ("_m_is_wakeup", ipscDerived b .is_wakeup)]).toPy d) :
    ∃ swapped, byteswapBytes (slice b 26 34) = .ok swapped ∧ IsPayloadLine b ("DMR DATA: ".toList ++ toHex swapped) ∧
    once .hytera_ipsc msg = (if ¬ (u8 b 18 = 0xEE ∧ u8 b 19 = 0xEE) then
        [.pprint d, .line ("DMR DATA: ".toList ++ toHex swapped)] else [.pprint d], .ok ()) := by
  obtain ⟨f1, f2, f3⟩ := ipsc_fields hx
  obtain ⟨swapped, s1, s2⟩ := payload_line b f1
  refine ⟨swapped, s1, s2, ?_⟩
  have hl := LibraryObject.used_IpSiteConnectProtocol x [.source_radio_id, .destination_radio_id, .color_code, .is_wakeup]
  rw [accesses_four hx] at hl
  rw [once, fromHex_of_text hm]
  simp only [Tool.fromBytes, hx, Except.map, showDecoded]
  rw [accesses_four hx, (prettyprint_printed hl).2 hd]
  simp only
  rw [f2]
  by_cases hs : u8 b 18 = 0xEE ∧ u8 b 19 = 0xEE
  · rw [if_neg (not_not.2 (f3.2 hs)), if_neg (not_not.2 hs)]
  · rw [if_pos (fun h => hs (f3.1 h)), if_pos hs, s1]

/-- What the class of a tool does, for the tools other than that for IPSC. -/
theorem fromBytes_other (tool : Tool) (ht : tool ≠ .hytera_ipsc) (b : Bytes) :
    (∃ v, tool.fromBytes b = .ok (.other v) ∧ decodedBy tool b = .ok v ∧ LibraryObject v) ∨
    ∃ e, tool.fromBytes b = .error e ∧ decodedBy tool b = .error e := by
  have key : ∀ {α : Type} (r : Except PyErr α) (f : α → PyVal), (∀ x, LibraryObject (f x)) →
      (∃ v, (r.map fun x => Decoded.other (f x)) = .ok (.other v) ∧ r.map f = .ok v ∧ LibraryObject v) ∨
      ∃ e, (r.map fun x => Decoded.other (f x)) = .error e ∧ r.map f = .error e := by
    intro α r f hf
    cases r with
    | ok x => exact .inl ⟨f x, rfl, rfl, hf x⟩
    | error e => exact .inr ⟨e, rfl, rfl⟩
  cases tool with
  | hytera_ipsc => exact absurd rfl ht
  | hytera_rrs => exact key _ _ .Hytera_RadioRegistrationService
  | hytera_tmp => exact key _ _ .Hytera_TextMessageProtocol
  | hytera_rcp => exact key _ _ .Hytera_RadioControlProtocol
  | hytera_dds => exact key _ _ .Hytera_DataDeliveryStates
  | hytera_hdap => exact key _ _ .Hytera_HyteraDmrApplicationProtocol
  | hytera_hrnp => exact key _ _ .Hytera_HyteraRadioNetworkProtocol
  | hytera_hstrp => exact key _ _ .Hytera_HyteraSimpleTransportReliabilityProtocol
  | hytera_lp => exact key _ _ .Hytera_LocationProtocol
  | hytera_dtp => exact key _ _ .Hytera_DataTransmitProtocol
  | hytera_tp => exact key _ _ .Hytera_TelemetryProtocol
  | homebrew => exact key _ _ .Homebrew_Homebrew2015
  | mmdvm => exact key _ _ .Homebrew_Mmdvm2020
  | motorola_ars => exact key _ _ .Motorola_AutomaticRegistrationService
  | motorola_tmp => exact key _ _ .Motorola_TextMessageProtocol

theorem IsPayloadLine.unique {b : Bytes} {l l' : PyStr} (h : IsPayloadLine b l) (h' : IsPayloadLine b l') : l = l' := by
  obtain ⟨d, s, rfl, h1, h2, h3, h4, h5⟩ := h
  obtain ⟨d', s', rfl, h1', h2', h3', h4', h5'⟩ := h'
  have hs : s = s' := by
    refine List.ext_getElem? fun i => ?_
    by_cases hi : i < 33
    · rw [h5 i hi, h5' i hi]
    · rw [List.getElem?_eq_none (by omega), List.getElem?_eq_none (by omega)]
  subst hs
  have key : ∀ (n : Nat) (d d' : PyStr) (s : Bytes), d.length ≤ n → (∀ c ∈ d, c ∈ "0123456789abcdef".toList) →
      (∀ c ∈ d', c ∈ "0123456789abcdef".toList) → HexText d s → HexText d' s → d = d' := by
    intro n
    have nosp : ∀ c : Char, c ∈ "0123456789abcdef".toList → c ∉ [' ', '\t', '\n', '\r', '\x0b', '\x0c'] := by decide
    have dig : ∀ (c : Char) (k k' : Nat) (c' : Char), c ∈ "0123456789abcdef".toList → c' ∈ "0123456789abcdef".toList →
        IsHexDigit c k → IsHexDigit c' k' → k = k' → c = c' := by
      have inj : ∀ c ∈ "0123456789abcdef".toList, ∀ c' ∈ "0123456789abcdef".toList, hexDigit c = hexDigit c' → c = c' := by
        decide
      intro c k k' c' hc hc' hk hk' e
      subst e
      exact inj c hc c' hc' (by rw [(hexDigit_iff _ _).2 hk, (hexDigit_iff _ _).2 hk'])
    induction n with
    | zero =>
      intro d d' s hd _ h' ha hb
      have : d = [] := List.length_eq_zero_iff.1 (by omega)
      subst this
      cases ha
      cases hb with
      | nil => rfl
      | space hc _ => exact absurd hc (nosp _ (h' _ (by simp)))
    | succ n ih =>
      intro d d' s hd h h' ha hb
      cases ha with
      | nil =>
        cases hb with
        | nil => rfl
        | space hc _ => exact absurd hc (nosp _ (h' _ (by simp)))
      | space hc _ => exact absurd hc (nosp _ (h _ (by simp)))
      | @byte c d h1 l1 s b hc hd' hr =>
        generalize hg : UInt8.ofNat (16 * h1 + l1) :: b = t at hb
        cases hb with
        | nil => cases hg
        | space hc' _ => exact absurd hc' (nosp _ (h' _ (by simp)))
        | @byte c' d'' h2 l2 s' b' hc' hd'' hr' =>
          injection hg with g1 g2
          subst g2
          have lt : ∀ {c : Char} {k : Nat}, IsHexDigit c k → k < 16 := fun hk => by
            rcases hk with hk | hk <;> exact (List.getElem?_eq_some_iff.1 hk).1
          have a1 := lt hc
          have a2 := lt hd'
          have a3 := lt hc'
          have a4 := lt hd''
          have g1 := congrArg UInt8.toNat g1
          simp only [UInt8.toNat_ofNat'] at g1
          rw [dig c h1 h2 c' (h _ (by simp)) (h' _ (by simp)) hc hc' (by omega),
            dig d l1 l2 d'' (h _ (by simp)) (h' _ (by simp)) hd' hd'' (by omega),
            ih _ _ _ (by simp only [List.length_cons] at hd; omega) (fun x hx => h x (by simp [hx]))
              (fun x hx => h' x (by simp [hx])) hr hr']
  rw [key _ d d' s (Nat.le_refl _) h2 h2' h3 h3']

theorem HexText.unique {s : PyStr} {b b' : Bytes} (h : HexText s b) (h' : HexText s b') : b = b' := by
  have := fromHex_of_text h
  rw [fromHex_of_text h'] at this
  cases this; rfl

/-- A message is accepted with one output, or rejected with one exception; and this is what the loop does with it. -/
theorem once_iff (tool : Tool) (msg : PyStr) :
    (∃ out, once tool msg = (out, .ok ()) ∧ Accepted tool msg out) ∨ ∃ e, once tool msg = ([], .error e) ∧ Rejected tool msg e := by
  obtain ⟨x1, x2⟩ := C46_hex msg
  cases hf : fromHex msg with
  | error e =>
    refine .inr ⟨e, by rw [once, hf], .inl ((x2 e).1 hf)⟩
  | ok b =>
    have hm := (x1 b).1 hf
    by_cases ht : tool = .hytera_ipsc
    · subst ht
      cases hx : fromBytes IpSiteConnectProtocol.read b with
      | error e =>
        refine .inr ⟨e, ?_, .inr ⟨b, hm, ?_⟩⟩
        · rw [once, hf]; simp only [Tool.fromBytes, hx, Except.map]
        · simp only [decodedBy, hx, Except.map]
      | ok x =>
        obtain ⟨d, hd⟩ := printed_total (IpSiteConnectProtocol.Obj.mk x [("_m_source_radio_id", ipscDerived b .source_radio_id),
          ("_m_destination_radio_id", ipscDerived b .destination_radio_id), ("_m_color_code", ipscDerived b .color_code),
          ("_m_is_wakeup", ipscDerived b .is_wakeup)]).toPy
        obtain ⟨sw, _, s2, s3⟩ := once_ipsc hm hx hd
        refine .inl ⟨_, s3, b, _, d, hm, by simp only [decodedBy, hx, Except.map], hd, ?_⟩
        by_cases hs : u8 b 18 = 0xEE ∧ u8 b 19 = 0xEE
        · rw [if_neg (fun h => h.2 hs), if_neg (not_not.2 hs)]
        · rw [if_pos ⟨rfl, hs⟩, if_pos hs]
          exact ⟨_, s2, rfl⟩
    · rcases fromBytes_other tool ht b with ⟨v, h1, h2, h3⟩ | ⟨e, h1, h2⟩
      · obtain ⟨d, hd⟩ := printed_total v
        refine .inl ⟨_, once_other hm h1 h3 hd, b, v, d, hm, h2, hd, ?_⟩
        rw [if_neg (fun h => ht h.1)]
      · exact .inr ⟨e, by rw [once, hf]; simp only [h1], .inr ⟨b, hm, h2⟩⟩

theorem Accepted.unique {tool : Tool} {msg : PyStr} {o o' : List Output} (h : Accepted tool msg o) (h' : Accepted tool msg o') :
    o = o' := by
  obtain ⟨b, v, d, h1, h2, h3, h4⟩ := h
  obtain ⟨b', v', d', h1', h2', h3', h4'⟩ := h'
  cases h1.unique h1'
  rw [h2] at h2'
  cases h2'
  have : d = d' := by rw [printed_unique _ _ h3, printed_unique _ _ h3']
  subst this
  split at h4
  · rename_i hc
    rw [if_pos hc] at h4'
    obtain ⟨l, l1, rfl⟩ := h4
    obtain ⟨l', l1', rfl⟩ := h4'
    rw [l1.unique l1']
  · rename_i hc
    rw [if_neg hc] at h4'
    rw [h4, h4']

theorem Accepted.not_rejected {tool : Tool} {msg : PyStr} {o : List Output} {e : PyErr} (h : Accepted tool msg o)
    (h' : Rejected tool msg e) : False := by
  obtain ⟨b, v, d, h1, h2, _⟩ := h
  rcases h' with ⟨h', _⟩ | ⟨b', h1', h2'⟩
  · exact h' b h1
  · cases h1.unique h1'
    rw [h2] at h2'
    cases h2'

theorem Rejected.unique {tool : Tool} {msg : PyStr} {e e' : PyErr} (h : Rejected tool msg e) (h' : Rejected tool msg e') :
    e = e' := by
  rcases h with ⟨h1, h2⟩ | ⟨b, h1, h2⟩ <;> rcases h' with ⟨h1', h2'⟩ | ⟨b', h1', h2'⟩
  · rw [h2, h2']
  · exact absurd h1' (h1 b')
  · exact absurd h1 (h1' b)
  · cases h1.unique h1'
    rw [h2] at h2'
    cases h2'; rfl

/-- C46: a message is either accepted, with one output, or rejected, with one exception, and not both. -/
theorem C46_message (tool : Tool) (msg : PyStr) :
    ((∃ out, Accepted tool msg out) ∨ ∃ e, Rejected tool msg e) ∧
    (∀ out out', Accepted tool msg out → Accepted tool msg out' → out = out') ∧
    (∀ e e', Rejected tool msg e → Rejected tool msg e' → e = e') ∧
    ∀ out e, ¬ (Accepted tool msg out ∧ Rejected tool msg e) := by
  refine ⟨?_, fun _ _ => Accepted.unique, fun _ _ => Rejected.unique, fun _ _ h => h.1.not_rejected h.2⟩
  rcases once_iff tool msg with ⟨o, _, h⟩ | ⟨e, _, h⟩
  · exact .inl ⟨o, h⟩
  · exact .inr ⟨e, h⟩

/-- A radio registration that is accepted, and one that is too short. -/
example : ∃ out, Accepted .hytera_rrs "00030004 0a000001".toList out := by
  rcases (C46_message .hytera_rrs "00030004 0a000001".toList).1 with h | ⟨e, h | ⟨b, h, h'⟩⟩
  · exact h
  · exact absurd (((C46_hex _).1 [0, 3, 0, 4, 10, 0, 0, 1]).1 (by decide +kernel)) (h.1 _)
  · cases h.unique (((C46_hex _).1 [0, 3, 0, 4, 10, 0, 0, 1]).1 (by decide +kernel))
    exact absurd h' (by rw [show decodedBy .hytera_rrs [0, 3, 0, 4, 10, 0, 0, 1] = .ok _ from rfl]; exact nofun)
example : Rejected .hytera_rrs "0003".toList .eof :=
  .inr ⟨[0, 3], ((C46_hex _).1 _).1 (by decide +kernel), rfl⟩

/-! ### All messages -/

theorem once_accepted {tool : Tool} {msg : PyStr} {out : List Output} (h : Accepted tool msg out) :
    once tool msg = (out, .ok ()) := by
  rcases once_iff tool msg with ⟨o, h1, h2⟩ | ⟨e, _, h2⟩
  · rw [h1, h.unique h2]
  · exact absurd h2 (h.not_rejected)

theorem once_rejected {tool : Tool} {msg : PyStr} {e : PyErr} (h : Rejected tool msg e) :
    once tool msg = ([], .error e) := by
  rcases once_iff tool msg with ⟨o, _, h2⟩ | ⟨e', h1, h2⟩
  · exact absurd h (h2.not_rejected)
  · rw [h1, h.unique h2]

theorem debugLoop_cons (tool : Tool) (msg : PyStr) (rest : List PyStr) :
    debugLoop tool (msg :: rest) =
      match once tool msg with
      | (out, .error e) => (out, .error e)
      | (out, .ok ()) => (out ++ (debugLoop tool rest).1, (debugLoop tool rest).2) := by
  rw [debugLoop, once]
  cases fromHex msg with
  | error e => rfl
  | ok b =>
    simp only
    cases tool.fromBytes b with
    | error e => rfl
    | ok x =>
      simp only
      rcases showDecoded x with ⟨o, r⟩
      cases r <;> rfl

theorem debugLoop_good {tool : Tool} {good : List PyStr} {outs : List (List Output)} (rest : List PyStr)
    (h : List.Forall₂ (Accepted tool) good outs) :
    debugLoop tool (good ++ rest) = (outs.flatten ++ (debugLoop tool rest).1, (debugLoop tool rest).2) := by
  induction h with
  | nil => rfl
  | cons ha _ ih =>
    rw [List.cons_append, debugLoop_cons, once_accepted ha]
    simp only [ih, List.flatten_cons, List.append_assoc]

theorem debugImpl_eq (tool : Tool) (argv : List PyStr) (arguments : Option (List PyStr)) (m : PyStr) (ms : List PyStr)
    (hm : m :: ms = if arguments.getD [] = [] then argv else arguments.getD []) (out : List Output) (r : Except PyErr Unit)
    (h : debugLoop tool (m :: ms) = (out, r)) :
    debugImpl tool argv arguments = (out, match r with | .ok () => .done | .error e => .exception e) := by
  rcases arguments with _ | (_ | ⟨a, l⟩)
  · simp only [Option.getD_none, if_true] at hm
    subst hm
    unfold debugImpl
    simp only [h]
    cases r <;> rfl
  · simp only [Option.getD_some, if_true] at hm
    subst hm
    unfold debugImpl
    simp only [h]
    cases r <;> rfl
  · simp only [Option.getD_some, reduceCtorEq, if_false] at hm
    cases hm
    unfold debugImpl
    simp only [h]
    cases r <;> rfl

/-- C46: if every message is accepted, the tool writes their outputs, in order, and ends normally. The messages are the arguments
given, or the command line if there are none. -/
theorem C46_all_good (tool : Tool) (argv : List PyStr) (arguments : Option (List PyStr)) (msgs : List PyStr)
    (hm : msgs = if arguments.getD [] = [] then argv else arguments.getD []) (hne : msgs ≠ []) (outs : List (List Output))
    (h : List.Forall₂ (Accepted tool) msgs outs) : debugImpl tool argv arguments = (outs.flatten, .done) := by
  have := debugLoop_good [] h
  rw [List.append_nil, debugLoop, List.append_nil] at this
  cases msgs with
  | nil => exact absurd rfl hne
  | cons m ms => exact debugImpl_eq tool argv arguments m ms hm _ _ this

/-- Two radio registrations given on the command line. -/
example (out out' : List Output) (h : Accepted .hytera_rrs "00030004 0a000001".toList out)
    (h' : Accepted .hytera_rrs "00030004 0a000002".toList out') :
    debugImpl .hytera_rrs ["00030004 0a000001".toList, "00030004 0a000002".toList] none = (out ++ (out' ++ []), .done) :=
  C46_all_good .hytera_rrs _ none _ rfl (by decide) [out, out'] (.cons h (.cons h' .nil))

/-- C46: if a message is rejected, the tool writes exactly the outputs of the messages before it, in order, and ends with the
exception; what follows it does not matter. -/
theorem C46_first_bad (tool : Tool) (argv : List PyStr) (arguments : Option (List PyStr)) (good rest : List PyStr) (bad : PyStr)
    (hm : good ++ bad :: rest = if arguments.getD [] = [] then argv else arguments.getD []) (outs : List (List Output))
    (e : PyErr) (h : List.Forall₂ (Accepted tool) good outs) (hb : Rejected tool bad e) :
    debugImpl tool argv arguments = (outs.flatten, .exception e) := by
  have := debugLoop_good (bad :: rest) h
  rw [debugLoop_cons, once_rejected hb] at this
  simp only [List.append_nil] at this
  cases hg : good ++ bad :: rest with
  | nil => simp at hg
  | cons m ms => rw [hg] at this hm; exact debugImpl_eq tool argv arguments m ms hm _ _ this

example (out : List Output) (h : Accepted .hytera_rrs "00030004 0a000001".toList out) :
    debugImpl .hytera_rrs [] (some ["00030004 0a000001".toList, "0003".toList, "zz".toList]) = (out ++ [], .exception .eof) :=
  C46_first_bad .hytera_rrs [] _ ["00030004 0a000001".toList] _ _ rfl [out] _ (.cons h .nil)
    (.inr ⟨[0, 3], ((C46_hex _).1 _).1 (by decide +kernel), rfl⟩)

/-- C46: `C46_all_good` and `C46_first_bad` cover every run: every list of messages consists of accepted ones only, or of accepted
ones, a rejected one and a rest. Without messages the program ends with the usage message. -/
theorem C46_cases (tool : Tool) (msgs : List PyStr) :
    (∃ outs, List.Forall₂ (Accepted tool) msgs outs) ∨
    (∃ good bad rest outs e, msgs = good ++ bad :: rest ∧ List.Forall₂ (Accepted tool) good outs ∧ Rejected tool bad e) := by
  induction msgs with
  | nil => exact .inl ⟨[], .nil⟩
  | cons m ms ih =>
    rcases once_iff tool m with ⟨o, _, h⟩ | ⟨e, _, h⟩
    · rcases ih with ⟨outs, h'⟩ | ⟨good, bad, rest, outs, e, rfl, h1, h2⟩
      · exact .inl ⟨o :: outs, .cons h h'⟩
      · exact .inr ⟨m :: good, bad, rest, o :: outs, e, rfl, .cons h h1, h2⟩
    · exact .inr ⟨[], m, ms, [], e, rfl, .nil, h⟩

/-- C46: without messages, nothing is written and the program ends with the usage message. -/
theorem C46_usage (tool : Tool) (arguments : Option (List PyStr)) (h : arguments.getD [] = []) :
    debugImpl tool [] arguments = ([], .usage) := by
  rcases arguments with _ | (_ | ⟨a, l⟩)
  · rfl
  · rfl
  · cases h

example : debugImpl .hytera_ipsc [] none = ([], .usage) := C46_usage _ none rfl

/-- For the examples: the number of outputs, the lines among them, and the end. -/
def linesAndEnding (r : List Output × Ending) : Nat × List PyStr × Ending :=
  (r.1.length, r.1.filterMap (fun | .line s => some s | .pprint _ => none), r.2)

/-- A packet with payload 00 01 .. 21, then something that is no message, then a packet that is never looked at. -/
example : linesAndEnding (debugImpl .hytera_ipsc [] (some ["00005a5a00000000000000000000000000000000000000000000000102030405060708090a0b0c0d0e0f101112131415161718191a1b1c1d1e1f2021000000000000000000000000".toList, "5a5".toList, "00".toList])) =
    (2, ["DMR DATA: 010003020504070609080b0a0d0c0f0e111013121514171619181b1a1d1c1f1e21".toList], .exception .value) := by decide +kernel

/-- White space between bytes, digits of both cases. -/
example : HexText " 5a\t5A ".toList [0x5A, 0x5A] := ((C46_hex _).1 _).1 (by decide)

/-- Radio registration: an offline message, and one that is too short. -/
example : linesAndEnding (debugImpl .hytera_rrs ["00010004 0a000001".toList, "0003".toList] none) = (1, [], .exception .eof) := by
  decide +kernel

end Dmr.Tools
