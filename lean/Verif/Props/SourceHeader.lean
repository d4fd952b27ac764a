import Verif.Props.SourceWire
import Verif.Props.SourceProperties
/-
C65 for properties: for which octets running `from_bytes(b).p` returns a value, and which.
-/

set_option autoImplicit false
set_option linter.unusedSimpArgs false

namespace Dmr.Wire

open Spec Py

/-- Running `class.from_bytes(b).p` gives the value `v`. -/
def GivesProperty (name p : String) (b : Bytes) (v : PyVal) : Prop :=
  ∀ n, 13 ≤ n → ∃ σ w τ, Py.fromBytes library n name b = .ok (.obj 0) σ ∧ Py.access library n 0 p σ = .ok w τ ∧ Py.Reads τ.heap w v

/-- A value without parts. -/
def Plain (v : PyVal) : Prop := (∀ cls vs, v ≠ .struct cls vs) ∧ ∀ vs, v ≠ .list vs

theorem reads_plain {h : List Obj} {w : Val} {v v' : PyVal} (p : Plain v) (r : Py.Reads h w v) (r' : Py.Reads h w v') : v' = v := by
  cases r with
  | plain _ s l => cases r' with | plain _ => rfl
  | list => exact absurd rfl (p.2 _)
  | object => exact absurd rfl (p.1 _ _)

theorem reads_object {h : List Obj} {w : Val} {c c' : String} {vs vs' : List (String × PyVal)} (r : Py.Reads h w (.struct c vs)) (r' : Py.Reads h w (.struct c' vs')) :
    c = c' ∧ ∀ x v, x ∉ links → x ∉ Py.memos → vs.lookup x = some v → Plain v → vs'.lookup x = some v := by
  cases r with
  | plain _ s _ => exact absurd rfl (s _ _)
  | object f at1 names values =>
    cases r' with
    | object g at2 names' values' =>
      rw [at1] at at2
      injection at2 with at2
      injection at2 with hc ha
      subst hc ha
      refine ⟨rfl, fun x v h1 h2 hv hp => ?_⟩
      have e := names x h1 h2
      rw [hv, names' x h1 h2] at e
      rcases hv' : vs'.lookup x with _ | v'
      · rw [hv'] at e; simp at e
      rw [hv'] at e
      simp only [Option.isSome_some, if_true, Option.some.injEq] at e
      have a := values x v h1 h2 hv
      have a' := values' x v' h1 h2 hv'
      rw [e] at a'
      rw [reads_plain hp a a']

/-- One access after decoding. -/
theorem access_decoded {name : String} {s : LazySpec} (known : (name, s) ∈ propertyClasses) {p : String} (hp : p ∈ s.cls.getters.map Prod.fst) {n : Nat} (hn : 13 ≤ n)
    {b : Bytes} {x : s.cls.Attrs} (h : Dmr.fromBytes s.cls.read b = .ok x) :
    ∃ σ, Py.fromBytes library n name b = .ok (.obj 0) σ ∧
      match s.value x b p with
      | .ok v => ∃ w τ, Py.access library n 0 p σ = .ok w τ ∧ Py.Reads τ.heap w v
      | .error e => ∃ τ, Py.access library n 0 p σ = .raise e τ := by
  obtain ⟨σ, outs, τ, h1, -, h3, h4, -⟩ := C60_packet name s known n hn b x h [p] (by simpa using hp)
  refine ⟨σ, h1, ?_⟩
  simp only [List.map_cons, List.map_nil, Py.accesses] at h3 h4
  rcases ha : Py.access library n 0 p σ with ⟨w, τ'⟩ | ⟨e, τ'⟩
  · rw [ha] at h3
    simp only [Prod.mk.injEq] at h3
    obtain ⟨rfl, rfl⟩ := h3
    cases h4 with
    | cons h4 _ =>
      rcases hv : s.value x b p with e | v
      · rw [hv] at h4; exact h4.elim
      · rw [hv] at h4; exact ⟨w, _, rfl, h4⟩
  · rw [ha] at h3
    simp only [Prod.mk.injEq] at h3
    obtain ⟨rfl, rfl⟩ := h3
    cases h4 with
    | cons h4 _ =>
      rcases hv : s.value x b p with e' | v
      · rw [hv] at h4; have : e = e' := h4; subst this; exact ⟨_, rfl⟩
      · rw [hv] at h4; exact h4.elim

theorem gives_property {name : String} {s : LazySpec} (known : (name, s) ∈ propertyClasses) {p : String} (hp : p ∈ s.cls.getters.map Prod.fst) {b : Bytes} {v : PyVal}
    (h : GivesProperty name p b v) :
    ∃ x v', Dmr.fromBytes s.cls.read b = .ok x ∧ s.value x b p = .ok v' ∧ ∃ heap w, Py.Reads heap w v ∧ Py.Reads heap w v' := by
  obtain ⟨σ, w, τ, h1, h2, h3⟩ := h 13 (Nat.le_refl _)
  have hx : ∃ x, Dmr.fromBytes s.cls.read b = .ok x := by
    obtain ⟨-, hname⟩ := propertyClasses_known _ known
    rcases hx : s.cls.read (Stream.new b) with ⟨e | y, t⟩
    · rw [C58_raises name _ (C58_models _ hname) 13 (Nat.le_refl _) b e t hx] at h1; cases h1
    · exact ⟨y, by unfold Dmr.fromBytes; rw [hx]⟩
  obtain ⟨x, hx⟩ := hx
  obtain ⟨σ', h1', h4⟩ := access_decoded known hp (Nat.le_refl 13) hx
  rw [h1] at h1'
  injection h1' with _ h1'
  subst h1'
  rcases hv : s.value x b p with e | v'
  · rw [hv, h2] at h4; obtain ⟨_, h4⟩ := h4; cases h4
  · rw [hv, h2] at h4
    obtain ⟨w', τ', h4, h5⟩ := h4
    injection h4 with h4 h6
    subst h4 h6
    exact ⟨x, v', hx, hv, _, _, h3, h5⟩

/-- **C65.** For every property of the library and every value without parts: running `class.from_bytes(b).p` gives `v` exactly if `b` is
decoded and `v` is what the property is specified to be. -/
theorem C65_property (name : String) (s : LazySpec) (known : (name, s) ∈ propertyClasses) (p : String) (hp : p ∈ s.cls.getters.map Prod.fst) (b : Bytes) (v : PyVal)
    (plain : Plain v) :
    GivesProperty name p b v ↔ ∃ x, Dmr.fromBytes s.cls.read b = .ok x ∧ s.value x b p = .ok v := by
  constructor
  · intro h
    obtain ⟨x, v', h1, h2, heap, w, h3, h4⟩ := gives_property known hp h
    rw [reads_plain plain h3 h4] at h2
    exact ⟨x, h1, h2⟩
  · rintro ⟨x, h1, h2⟩ n hn
    obtain ⟨σ, h3, h4⟩ := access_decoded known hp hn h1
    rw [h2] at h4
    obtain ⟨w, τ, h4, h5⟩ := h4
    exact ⟨σ, w, τ, h3, h4, h5⟩

open Etsi

theorem headerData_iff (b : Bytes) (x : DmrDataHeader.DataUnion) :
    headerData b = .ok x ↔ ∃ o, Dmr.fromBytes DmrDataHeader.read b = .ok o ∧ 12 ≤ b.length ∧ Dmr.fromBytes (DmrDataHeader.readDataBody o.data_packet_format) (b.take 12) = .ok x := by
  have h12 : (∃ o, Dmr.fromBytes DmrDataHeader.read b = .ok o ∧ 12 ≤ b.length ∧ Dmr.fromBytes (DmrDataHeader.readDataBody o.data_packet_format) (b.take 12) = .ok x) ↔
      12 ≤ b.length ∧ DmrDataHeader.bodySpec (u8 b 0 % 16) (b.take 12) = x := by
    have e := C24_header b
    constructor
    · rintro ⟨o, h1, h2, h3⟩
      rw [if_neg (by omega)] at e
      rw [h1] at e
      injection e with e
      subst e
      rw [DmrDataHeader.readDataBody_eq _ _ (by rw [List.length_take]; omega)] at h3
      exact ⟨h2, Except.ok.inj h3⟩
    · rintro ⟨h2, h3⟩
      rw [if_neg (by omega)] at e
      refine ⟨_, e, h2, ?_⟩
      rw [DmrDataHeader.readDataBody_eq _ _ (by rw [List.length_take]; omega), h3]
  rw [h12]
  have good : ∀ (h2 : 12 ≤ b.length), headerData b = .ok (DmrDataHeader.bodySpec (u8 b 0 % 16) (b.take 12)) := by
    intro h2
    unfold headerData
    rw [objFromBytes_eq _ (by omega)]
    dsimp only
    rw [(access_good h2 ⟨rfl, rfl, .inl rfl⟩).1]
  constructor
  · intro h
    have hl : 12 ≤ b.length := by
      by_contra hc
      by_cases h1 : 1 ≤ b.length
      · obtain ⟨o, ho, ha⟩ := C25_short b h1 (by omega)
        have ha := ha 1
        simp only [Etsi.accesses, List.replicate, List.cons.injEq, and_true] at ha
        simp only [headerData, ho, ha] at h
        cases h
      · have : b = [] := List.eq_nil_of_length_eq_zero (by omega)
        subst this
        cases h
    rw [good hl] at h
    exact ⟨hl, Except.ok.inj h⟩
  · rintro ⟨h2, h3⟩
    rw [good h2, h3]

theorem list_unique : ∀ (as bs : List (String × PyVal)), as.map Prod.fst = bs.map Prod.fst → (as.map Prod.fst).Nodup →
    (∀ x v, (x, v) ∈ as → bs.lookup x = some v) → as = bs
  | [], [], _, _, _ => rfl
  | (x, v) :: as, (y, w) :: bs, hk, hn, h => by
    simp only [List.map_cons, List.cons.injEq] at hk
    obtain ⟨rfl, hk⟩ := hk
    rw [List.map_cons, List.nodup_cons] at hn
    have e := h x v (.head _)
    rw [List.lookup_cons, beq_self_eq_true] at e
    have : w = v := Option.some.inj e
    subst this
    congr 1
    refine list_unique as bs hk hn.2 fun z u hz => ?_
    have e := h z u (.tail _ hz)
    rw [List.lookup_cons] at e
    have : z ≠ x := by rintro rfl; exact hn.1 (List.mem_map.2 ⟨_, hz, rfl⟩)
    rwa [beq_false_of_ne this] at e
  | [], _ :: _, hk, _, _ => by cases hk
  | _ :: _, [], hk, _, _ => by cases hk

theorem lookup_mem : ∀ (as : List (String × PyVal)) (x : String) (v : PyVal), (as.map Prod.fst).Nodup → (x, v) ∈ as → as.lookup x = some v
  | (y, w) :: as, x, v, hn, h => by
    rw [List.map_cons, List.nodup_cons] at hn
    rcases List.mem_cons.1 h with h' | h''
    · cases h'; rw [List.lookup_cons, beq_self_eq_true]
    · have : x ≠ y := by rintro rfl; exact hn.1 (List.mem_map.2 ⟨_, h'', rfl⟩)
      rw [List.lookup_cons, beq_false_of_ne this]
      exact lookup_mem as x v hn.2 h''

theorem lookup_object (x : String) (hx : x ∉ links) (as : List (String × PyVal)) :
    ([("_io", PyVal.stream), ("_parent", .backref), ("_root", .backref)] ++ as).lookup x = as.lookup x := by
  simp only [links, List.mem_cons, List.not_mem_nil, or_false, not_or] at hx
  simp only [List.cons_append, List.nil_append, List.lookup_cons, beq_false_of_ne hx.1, beq_false_of_ne hx.2.1, beq_false_of_ne hx.2.2]

/-- An object of which all attributes are values without parts can be told from a look into the memory. -/
theorem flat_unique {h : List Obj} {w : Val} {c c' : String} {as bs : List (List (String × PyVal))} (r : Py.Reads h w (.object c as)) (r' : Py.Reads h w (.object c' bs)) :
    c = c' ∧ (as.flatten.map Prod.fst = bs.flatten.map Prod.fst → (as.flatten.map Prod.fst).Nodup → (∀ x ∈ as.flatten.map Prod.fst, x ∉ links ∧ x ∉ Py.memos) →
      (∀ a ∈ as.flatten, Plain a.2) → PyVal.object c as = PyVal.object c' bs) := by
  obtain ⟨hc, hv⟩ := reads_object r r'
  subst hc
  refine ⟨rfl, fun hk hn hx hp => ?_⟩
  have : as.flatten = bs.flatten := by
    refine list_unique _ _ hk hn fun x v hm => ?_
    obtain ⟨h1, h2⟩ := hx x (List.mem_map.2 ⟨_, hm, rfl⟩)
    rw [← lookup_object x h1]
    refine hv x v h1 h2 ?_ (hp _ hm)
    rw [lookup_object x h1]
    exact lookup_mem _ _ _ hn hm
  unfold PyVal.object
  rw [this]

theorem plain_int (i : Int) : Plain (.int i) := ⟨by simp, by simp⟩
theorem plain_bool (i : Bool) : Plain (.bool i) := ⟨by simp, by simp⟩
theorem plain_bytes (i : Bytes) : Plain (.bytes i) := ⟨by simp, by simp⟩

theorem plain_enum {E : Type} [PyEnum E] (c : String) (e : EnumVal E) : Plain (e.toPy c) := by
  cases e
  · exact ⟨by simp [EnumVal.toPy], by simp [EnumVal.toPy]⟩
  · exact plain_int _

/-- The class of a header. -/
def headerClass : DmrDataHeader.DataUnion → String
  | .dataHeaderProprietary _ => "Etsi.DmrDataHeader.DataHeaderProprietary"
  | .dataHeaderShortDefined _ => "Etsi.DmrDataHeader.DataHeaderShortDefined"
  | .dataHeaderUnconfirmed _ => "Etsi.DmrDataHeader.DataHeaderUnconfirmed"
  | .dataHeaderConfirmed _ => "Etsi.DmrDataHeader.DataHeaderConfirmed"
  | .dataHeaderUdt _ => "Etsi.DmrDataHeader.DataHeaderUdt"
  | .dataHeaderShortStatusPrecoded _ => "Etsi.DmrDataHeader.DataHeaderShortStatusPrecoded"
  | .dataHeaderResponse _ => "Etsi.DmrDataHeader.DataHeaderResponse"
  | .dataHeaderUndefined _ => "Etsi.DmrDataHeader.DataHeaderUndefined"

theorem headerClass_reads {h : List Obj} {w : Val} {x y : DmrDataHeader.DataUnion} (r : Py.Reads h w x.toPy) (r' : Py.Reads h w y.toPy) : headerClass x = headerClass y := by
  cases x <;> cases y <;> exact (flat_unique r r').1

/-- A header can be told from a look into the memory. -/
theorem union_unique {h : List Obj} {w : Val} {x y : DmrDataHeader.DataUnion} (r : Py.Reads h w x.toPy) (r' : Py.Reads h w y.toPy) : x = y := by
  have hc := headerClass_reads r r'
  cases x <;> cases y <;> simp only [headerClass] at hc <;>
    first
    | exact absurd hc (by decide)
    | skip
  · rename_i x y
    exact congrArg DmrDataHeader.DataUnion.dataHeaderProprietary (DmrDataHeader.DataHeaderProprietary.toPy_inj ((flat_unique r r').2 rfl (by simp [PyVal.attr]) (by simp [PyVal.attr, links, Py.memos])
      (by simp [PyVal.attr, plain_int, plain_bool, plain_bytes, plain_enum])))
  · rename_i x y
    exact congrArg DmrDataHeader.DataUnion.dataHeaderShortDefined (DmrDataHeader.DataHeaderShortDefined.toPy_inj ((flat_unique r r').2 rfl (by simp [PyVal.attr]) (by simp [PyVal.attr, links, Py.memos])
      (by simp [PyVal.attr, plain_int, plain_bool, plain_bytes, plain_enum])))
  · rename_i x y
    exact congrArg DmrDataHeader.DataUnion.dataHeaderUnconfirmed (DmrDataHeader.DataHeaderUnconfirmed.toPy_inj ((flat_unique r r').2 rfl (by simp [PyVal.attr]) (by simp [PyVal.attr, links, Py.memos])
      (by simp [PyVal.attr, plain_int, plain_bool, plain_bytes, plain_enum])))
  · rename_i x y
    exact congrArg DmrDataHeader.DataUnion.dataHeaderConfirmed (DmrDataHeader.DataHeaderConfirmed.toPy_inj ((flat_unique r r').2 rfl (by simp [PyVal.attr]) (by simp [PyVal.attr, links, Py.memos])
      (by simp [PyVal.attr, plain_int, plain_bool, plain_bytes, plain_enum])))
  · rename_i x y
    exact congrArg DmrDataHeader.DataUnion.dataHeaderUdt (DmrDataHeader.DataHeaderUdt.toPy_inj ((flat_unique r r').2 rfl (by simp [PyVal.attr]) (by simp [PyVal.attr, links, Py.memos])
      (by simp [PyVal.attr, plain_int, plain_bool, plain_bytes, plain_enum])))
  · rename_i x y
    exact congrArg DmrDataHeader.DataUnion.dataHeaderShortStatusPrecoded (DmrDataHeader.DataHeaderShortStatusPrecoded.toPy_inj ((flat_unique r r').2 rfl (by simp [PyVal.attr]) (by simp [PyVal.attr, links, Py.memos])
      (by simp [PyVal.attr, plain_int, plain_bool, plain_bytes, plain_enum])))
  · rename_i x y
    exact congrArg DmrDataHeader.DataUnion.dataHeaderResponse (DmrDataHeader.DataHeaderResponse.toPy_inj ((flat_unique r r').2 rfl (by simp [PyVal.attr]) (by simp [PyVal.attr, links, Py.memos])
      (by simp [PyVal.attr, plain_int, plain_bool, plain_bytes, plain_enum])))
  · rename_i x y
    exact congrArg DmrDataHeader.DataUnion.dataHeaderUndefined (DmrDataHeader.DataHeaderUndefined.toPy_inj ((flat_unique r r').2 rfl (by simp [PyVal.attr]) (by simp [PyVal.attr, links, Py.memos])
      (by simp [PyVal.attr, plain_int, plain_bool, plain_bytes, plain_enum])))

/-- C65. `DmrDataHeader.from_bytes(b).data` is `x` exactly if `b` begins with a header that means `x`. -/
theorem C65_data_header (b : Bytes) (x : DmrDataHeader.DataUnion) :
    GivesProperty "Etsi.DmrDataHeader" "data" b x.toPy ↔
      ∃ (msg : Header) (crc : Octets 2) (rest : Bytes), b = msg.bytes crc ++ rest ∧ x = msg.obj crc := by
  have known : ("Etsi.DmrDataHeader", ⟨dataHeaderClass, dataHeaderValue⟩) ∈ propertyClasses := List.mem_of_getElem? (i := 16) rfl
  rw [← C57_data_header, headerData_iff]
  constructor
  · intro h
    obtain ⟨o, v, h1, h2, heap, w, h3, h4⟩ := gives_property known (by decide) h
    simp only [dataHeaderValue, if_true] at h2
    by_cases hl : 12 ≤ b.length
    · rw [if_pos hl] at h2
      rcases hy : Dmr.fromBytes (DmrDataHeader.readDataBody o.data_packet_format) (b.take 12) with e | y
      · rw [hy] at h2; cases h2
      · rw [hy] at h2
        have : y.toPy = v := Except.ok.inj h2
        subst this
        rw [union_unique h3 h4]
        exact ⟨o, h1, hl, hy⟩
    · rw [if_neg hl] at h2; cases h2
  · rintro ⟨o, h1, hl, hy⟩ n hn
    obtain ⟨σ, h3, h4⟩ := access_decoded known (p := "data") (by decide) hn h1
    simp only [dataHeaderValue, if_true, if_pos hl, hy] at h4
    obtain ⟨w, τ, h4, h5⟩ := h4
    exact ⟨σ, w, τ, h3, h4, h5⟩

/-- A confirmed data header. -/
example : GivesProperty "Etsi.DmrDataHeader" "data" [0x43, 0x40, 0, 0, 9, 0x23, 0x37, 0x45, 0x81, 0x12, 0xAA, 0xBB]
    ((Header.confirmed false true false false 4#4 0#4 9#24 0x233745#24 true 1#7 false 1#3 2#4).obj ⟨[0xAA, 0xBB], rfl⟩).toPy :=
  (C65_data_header _ _).2 ⟨_, _, [], by decide, rfl⟩

section

open Hytera

theorem four (b : Bytes) : 4 ≤ b.length ↔ ∃ x y z w rest, b = x :: y :: z :: w :: rest := by
  constructor
  · intro h
    match b, h with
    | x :: y :: z :: w :: rest, _ => exact ⟨x, y, z, w, rest, rfl⟩
    | [], h => simp at h
    | [_], h => simp at h
    | [_, _], h => simp at h
    | [_, _, _], h => simp at h
  · rintro ⟨x, y, z, w, rest, rfl⟩
    simp

/-- C65. `RadioIp.from_bytes(b).radio_id` is the number in the last three of four octets. -/
theorem C65_radio_ip_radio_id (b : Bytes) (i : Int) :
    GivesProperty "Hytera.RadioIp" "radio_id" b (.int i) ↔
      ∃ (subnet x y z : UInt8) (rest : Bytes), b = subnet :: x :: y :: z :: rest ∧ i = x.toNat * 65536 + y.toNat * 256 + z.toNat := by
  rw [C65_property _ ⟨radioIpClass, radioIpValue⟩ (List.mem_of_getElem? (i := 0) rfl) _ (by decide) _ _ (plain_int _)]
  dsimp only
  rw [RadioIp.fixed.fromBytes]
  constructor
  · rintro ⟨x, h1, h2⟩
    by_cases hl : 4 ≤ b.length
    · obtain ⟨s, x, y, z, rest, rfl⟩ := (four b).1 hl
      rw [if_pos hl] at h1
      cases h1
      simp [radioIpValue, RadioIp.spec, u8] at h2
      exact ⟨s, x, y, z, rest, rfl, h2.symm⟩
    · rw [if_neg hl] at h1; cases h1
  · rintro ⟨s, x, y, z, rest, rfl, rfl⟩
    refine ⟨_, if_pos (by simp), ?_⟩
    simp [radioIpValue, RadioIp.spec, u8]

/-- C65. `RadioIp.from_bytes(b).radio_ip` is the four octets as decimal numbers with dots in between. -/
theorem C65_radio_ip_text (b : Bytes) (t : List Char) :
    GivesProperty "Hytera.RadioIp" "radio_ip" b (.str t) ↔
      ∃ (x y z w : UInt8) (rest : Bytes), b = x :: y :: z :: w :: rest ∧ t = s!"{x.toNat}.{y.toNat}.{z.toNat}.{w.toNat}".toList := by
  rw [C65_property _ ⟨radioIpClass, radioIpValue⟩ (List.mem_of_getElem? (i := 0) rfl) _ (by decide) _ _ ⟨by simp, by simp⟩]
  dsimp only
  rw [RadioIp.fixed.fromBytes]
  have key : ∀ (x y z w : UInt8) (rest : Bytes), radioIpValue (RadioIp.spec (x :: y :: z :: w :: rest) 0) (x :: y :: z :: w :: rest) "radio_ip" =
      .ok (.str s!"{x.toNat}.{y.toNat}.{z.toNat}.{w.toNat}".toList) := by
    intro x y z w rest
    simp [radioIpValue, RadioIp.spec, u8, toString, Nat.repr, List.intercalate]
  constructor
  · rintro ⟨x, h1, h2⟩
    by_cases hl : 4 ≤ b.length
    · obtain ⟨s, x, y, z, rest, rfl⟩ := (four b).1 hl
      rw [if_pos hl] at h1
      cases h1
      rw [key] at h2
      simp only [Except.ok.injEq, PyVal.str.injEq] at h2
      exact ⟨s, x, y, z, rest, rfl, h2.symm⟩
    · rw [if_neg hl] at h1; cases h1
  · rintro ⟨s, x, y, z, rest, rfl, rfl⟩
    exact ⟨_, if_pos (by simp), key ..⟩

/-- C65. `RadioId.from_bytes(b).radio_id` is the number in the last three of four octets, the least significant octet first. -/
theorem C65_radio_id (b : Bytes) (i : Int) :
    GivesProperty "Hytera.RadioId" "radio_id" b (.int i) ↔
      ∃ (lowest x y z : UInt8) (rest : Bytes), b = lowest :: x :: y :: z :: rest ∧ i = x.toNat + y.toNat * 256 + z.toNat * 65536 := by
  rw [C65_property _ ⟨radioIdClass, radioIdValue⟩ (List.mem_of_getElem? (i := 1) rfl) _ (by decide) _ _ (plain_int _)]
  dsimp only
  rw [RadioId.fixed.fromBytes]
  have key : ∀ (x y z w : UInt8) (rest : Bytes), radioIdValue (RadioId.spec (x :: y :: z :: w :: rest) 0) (x :: y :: z :: w :: rest) "radio_id" =
      .ok (.int (y.toNat + z.toNat * 256 + w.toNat * 65536)) := by
    intro x y z w rest
    have : u32le (x :: y :: z :: w :: rest) 0 / 256 = y.toNat + z.toNat * 256 + w.toNat * 65536 := by
      have := x.toNat_lt
      simp [u32le, u16le, u8]
      omega
    simp only [radioIdValue, RadioId.spec, if_true, this]
    simp
  constructor
  · rintro ⟨x, h1, h2⟩
    by_cases hl : 4 ≤ b.length
    · obtain ⟨s, x, y, z, rest, rfl⟩ := (four b).1 hl
      rw [if_pos hl] at h1
      cases h1
      rw [key] at h2
      simp only [Except.ok.injEq, PyVal.int.injEq] at h2
      exact ⟨s, x, y, z, rest, rfl, h2.symm⟩
    · rw [if_neg hl] at h1; cases h1
  · rintro ⟨s, x, y, z, rest, rfl, rfl⟩
    exact ⟨_, if_pos (by simp), key ..⟩

/-- C65. `Gpsdata.from_bytes(b).gps_available`: there are 40 octets, the first is ASCII, and the value is whether it is the letter A. -/
theorem C65_gps_available (b : Bytes) (v : Bool) :
    GivesProperty "Hytera.Gpsdata" "gps_available" b (.bool v) ↔
      ∃ (status : UInt8) (rest : Bytes), b = status :: rest ∧ 39 ≤ rest.length ∧ status.toNat < 128 ∧ v = decide (Char.ofNat status.toNat = 'A') := by
  rw [C65_property _ ⟨gpsdataClass, gpsdataValue⟩ (List.mem_of_getElem? (i := 2) rfl) _ (by decide) _ _ (plain_bool _)]
  dsimp only
  rw [Gpsdata.fixed.fromBytes]
  have key : ∀ (x : UInt8) (rest : Bytes), gpsdataValue (Gpsdata.spec (x :: rest) 0) (x :: rest) "gps_available" =
      if x.toNat < 128 then .ok (.bool (decide (Char.ofNat x.toNat = 'A'))) else .error .unicode := by
    intro x rest
    have e : (Gpsdata.spec (x :: rest) 0).gps_status = [x] := by simp [Gpsdata.spec, slice]
    have e2 : (x = 65) ↔ Char.ofNat x.toNat = 'A' := by
      constructor
      · rintro rfl; rfl
      · intro h
        have h1 : x.toNat.isValidChar := by have := x.toNat_lt; left; omega
        have h := congrArg Char.toNat h
        rw [Char.ofNat, dif_pos h1] at h
        exact UInt8.toNat_inj.1 h
    simp only [gpsdataValue, if_true, e, List.mem_singleton, forall_eq, List.cons.injEq, and_true, e2]
  constructor
  · rintro ⟨x, h1, h2⟩
    by_cases hl : 40 ≤ b.length
    · rw [if_pos hl] at h1
      cases h1
      match b, hl with
      | c :: rest, hl =>
        rw [key] at h2
        by_cases hc : c.toNat < 128
        · rw [if_pos hc] at h2
          simp only [Except.ok.injEq, PyVal.bool.injEq] at h2
          exact ⟨c, rest, rfl, by simpa using hl, hc, h2.symm⟩
        · rw [if_neg hc] at h2; cases h2
    · rw [if_neg hl] at h1; cases h1
  · rintro ⟨c, rest, rfl, hl, hc, rfl⟩
    refine ⟨_, if_pos (by simpa using hl), ?_⟩
    rw [key, if_pos hc]

/-- C65. `Datetimestring`: 14 octets that are a text in UTF-8. -/
theorem C65_datetimestring (b : Bytes) (x : Datetimestring) :
    Gives "Hytera.Datetimestring" b x.toPy ↔ ∃ (t : PyStr) (rest : Bytes), (encUtf8 t).length = 14 ∧ b = encUtf8 t ++ rest ∧ x = ⟨t⟩ := by
  refine (C64_gives "Hytera.Datetimestring" ⟨_, Datetimestring.read, Datetimestring.toPy⟩ (List.mem_of_getElem? (i := 8) rfl) b x).trans ?_
  dsimp only
  rw [Datetimestring.parses.fromBytes]
  unfold Datetimestring.spec textAt
  constructor
  · intro h
    by_cases hl : 0 + 14 ≤ b.length
    · rw [if_pos hl] at h
      rcases ht : decodeUtf8 (slice b 0 14) with _ | t
      · rw [ht] at h; cases h
      · rw [ht] at h
        cases h
        have e := (decodeUtf8_iff _ _).1 ht
        refine ⟨t, b.drop 14, by rw [e, length_slice b 0 14 hl], ?_, rfl⟩
        rw [e, slice, List.drop_zero, List.take_append_drop]
    · rw [if_neg hl] at h; cases h
  · rintro ⟨t, rest, hl, rfl, rfl⟩
    have e : slice (encUtf8 t ++ rest) 0 14 = encUtf8 t := by rw [slice, List.drop_zero, ← hl, List.take_left]
    rw [if_pos (by rw [List.length_append]; omega), e, (decodeUtf8_iff _ _).2 rfl]
    rfl

/-- C65. `Intervalstring`: 8 octets that are a text in UTF-8. -/
theorem C65_intervalstring (b : Bytes) (x : Intervalstring) :
    Gives "Hytera.Intervalstring" b x.toPy ↔ ∃ (t : PyStr) (rest : Bytes), (encUtf8 t).length = 8 ∧ b = encUtf8 t ++ rest ∧ x = ⟨t⟩ := by
  refine (C64_gives "Hytera.Intervalstring" ⟨_, Intervalstring.read, Intervalstring.toPy⟩ (List.mem_of_getElem? (i := 15) rfl) b x).trans ?_
  dsimp only
  rw [Intervalstring.parses.fromBytes]
  unfold Intervalstring.spec textAt
  constructor
  · intro h
    by_cases hl : 0 + 8 ≤ b.length
    · rw [if_pos hl] at h
      rcases ht : decodeUtf8 (slice b 0 8) with _ | t
      · rw [ht] at h; cases h
      · rw [ht] at h
        cases h
        have e := (decodeUtf8_iff _ _).1 ht
        refine ⟨t, b.drop 8, by rw [e, length_slice b 0 8 hl], ?_, rfl⟩
        rw [e, slice, List.drop_zero, List.take_append_drop]
    · rw [if_neg hl] at h; cases h
  · rintro ⟨t, rest, hl, rfl, rfl⟩
    have e : slice (encUtf8 t ++ rest) 0 8 = encUtf8 t := by rw [slice, List.drop_zero, ← hl, List.take_left]
    rw [if_pos (by rw [List.length_append]; omega), e, (decodeUtf8_iff _ _).2 rfl]
    rfl

/-- C65. `RadioIp`: four octets. -/
theorem C65_radio_ip (b : Bytes) (v : RadioIp) :
    Gives "Hytera.RadioIp" b v.toPy ↔ ∃ (x y z w : UInt8) (rest : Bytes), b = x :: y :: z :: w :: rest ∧ v = ⟨x.toNat, y.toNat, z.toNat, w.toNat⟩ := by
  refine (C64_gives "Hytera.RadioIp" ⟨_, RadioIp.read, RadioIp.toPy⟩ (List.mem_of_getElem? (i := 51) rfl) b v).trans ?_
  dsimp only
  rw [RadioIp.fixed.fromBytes]
  constructor
  · intro h
    by_cases hl : 4 ≤ b.length
    · obtain ⟨s, x, y, z, rest, rfl⟩ := (four b).1 hl
      rw [if_pos hl] at h
      cases h
      exact ⟨s, x, y, z, rest, rfl, rfl⟩
    · rw [if_neg hl] at h; cases h
  · rintro ⟨s, x, y, z, rest, rfl, rfl⟩
    exact if_pos (by simp)

set_option maxRecDepth 20000 in
/-- C65. `Gpsdata`: 40 octets. -/
theorem C65_gpsdata (b : Bytes) (x : Gpsdata) :
    Gives "Hytera.Gpsdata" b x.toPy ↔ ∃ (gps : Gps) (rest : Bytes), b = pack gps.flds ++ rest ∧ x = gps.obj := by
  refine (C64_gives "Hytera.Gpsdata" ⟨_, Gpsdata.read, Gpsdata.toPy⟩ (List.mem_of_getElem? (i := 9) rfl) b x).trans ?_
  dsimp only
  rw [Gpsdata.fixed.fromBytes]
  constructor
  · intro h
    by_cases hl : 40 ≤ b.length
    · rw [if_pos hl] at h
      cases h
      refine ⟨⟨.at b 0 1 (by omega), .at b 1 6 (by omega), .at b 7 6 (by omega), .at b 13 1 (by omega), .at b 14 9 (by omega), .at b 23 1 (by omega),
        .at b 24 10 (by omega), .at b 34 3 (by omega), .at b 37 3 (by omega)⟩, b.drop 40, ?_, ?_⟩
      · simp only [Gps.flds]
        found hl
      · rfl
    · rw [if_neg hl] at h; cases h
  · rintro ⟨g, rest, rfl, rfl⟩
    unfold Gps.flds
    packed
    rw [if_pos (by omega)]
    have hs := And.intro (slice_bits m 0 1 (by omega)) <| And.intro (slice_bits m 1 6 (by omega)) <| And.intro (slice_bits m 7 6 (by omega)) <|
      And.intro (slice_bits m 13 1 (by omega)) <| And.intro (slice_bits m 14 9 (by omega)) <| And.intro (slice_bits m 23 1 (by omega)) <|
      And.intro (slice_bits m 24 10 (by omega)) <| And.intro (slice_bits m 34 3 (by omega)) (slice_bits m 37 3 (by omega))
    simp only [Nat.reduceMul, hf, octets_ofOctets] at hs
    simp only [Gpsdata.spec, Gps.obj, Nat.mul_zero, Nat.zero_add, Nat.reduceMul, hf, hs]

end

example : GivesProperty "Hytera.RadioIp" "radio_id" [10, 0x23, 0x37, 0x45, 99] (.int 2307909) := (C65_radio_ip_radio_id _ _).2 ⟨10, 0x23, 0x37, 0x45, [99], rfl, by decide⟩
example : GivesProperty "Hytera.RadioIp" "radio_ip" [10, 0, 0, 80] (.str "10.0.0.80".toList) := (C65_radio_ip_text _ _).2 ⟨10, 0, 0, 80, [], rfl, by decide +kernel⟩
example : GivesProperty "Hytera.RadioId" "radio_id" [0, 9, 0, 0] (.int 9) := (C65_radio_id _ _).2 ⟨0, 9, 0, 0, [], rfl, by decide⟩
example : GivesProperty "Hytera.Gpsdata" "gps_available" (65 :: List.replicate 39 48) (.bool true) := (C65_gps_available _ _).2 ⟨65, _, rfl, by simp, by decide, by decide⟩
example : Gives "Hytera.Intervalstring" (encUtf8 "00000030".toList) (Hytera.Intervalstring.mk "00000030".toList).toPy := (C65_intervalstring _ _).2 ⟨_, [], by decide +kernel, by simp, rfl⟩
example : Gives "Hytera.Datetimestring" (encUtf8 "20220524231412".toList) (Hytera.Datetimestring.mk "20220524231412".toList).toPy := (C65_datetimestring _ _).2 ⟨_, [], by decide +kernel, by simp, rfl⟩
example : Gives "Hytera.RadioIp" [10, 0, 0, 80, 7] (Hytera.RadioIp.mk 10 0 0 80).toPy := (C65_radio_ip _ _).2 ⟨10, 0, 0, 80, [7], rfl, rfl⟩

end Dmr.Wire
