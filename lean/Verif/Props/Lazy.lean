import Verif.Model.Lazy
import Verif.Props.HyteraFrames
import Verif.Props.HyteraTransport
/-
Properties C08 (general opcode of a location message) and C20 (derived values of an IPSC packet): lazily computed, cached
properties under any history of accesses.
-/

namespace Dmr.Hytera

/-! ### C20 -/

/-- The value of a derived attribute, from the bytes of the packet: the radio ids are the 24 bit little-endian numbers at
offsets 64 and 68, the color code is the low nibble of byte 20, and it is a wakeup iff the call type (byte 62) is 2 or 12 or
the slot type (bytes 18, 19) is DD DD. -/
def ipscDerived (b : Bytes) : IpSiteConnectProtocol.Property → PyVal
  | .source_radio_id => .int (u8 b 68 + 256 * u8 b 69 + 65536 * u8 b 70 : Nat)
  | .destination_radio_id => .int (u8 b 64 + 256 * u8 b 65 + 65536 * u8 b 66 : Nat)
  | .color_code => .int (u8 b 20 % 16 : Nat)
  | .is_wakeup => .bool (decide (u8 b 62 = 2 ∨ u8 b 62 = 12 ∨ (u8 b 18 = 0xDD ∧ u8 b 19 = 0xDD)))

/-- C20: the computed value is the documented one. -/
theorem C20_value {b : Bytes} {x : IpSiteConnectProtocol} (h : fromBytes IpSiteConnectProtocol.read b = .ok x)
    (p : IpSiteConnectProtocol.Property) : x.compute p = ipscDerived b p := by
  rw [C19_layout] at h
  split at h
  · cases h
  split at h
  · cases h
  split at h
  · cases h
  cases h
  have h1 := u8_lt b 18
  have h2 := u8_lt b 19
  cases p
  · have := u8_lt b 67
    simp only [IpSiteConnectProtocol.compute, IpSiteConnectProtocol.source_radio_id, ipscDerived, u32le, Nat.shiftRight_eq_div_pow,
      PyVal.int.injEq, Nat.reduceAdd]
    show ((_ : Nat) : Int) = _
    congr 1
    omega
  · have := u8_lt b 63
    simp only [IpSiteConnectProtocol.compute, IpSiteConnectProtocol.destination_radio_id, ipscDerived, u32le,
      Nat.shiftRight_eq_div_pow, PyVal.int.injEq, Nat.reduceAdd]
    show ((_ : Nat) : Int) = _
    congr 1
    omega
  · simp only [IpSiteConnectProtocol.compute, IpSiteConnectProtocol.color_code, ipscDerived, u16le, PyVal.int.injEq]
    show ((_ : Nat) : Int) = _
    congr 1
    rw [show (15 : Nat) = 2 ^ 4 - 1 from rfl, Nat.and_two_pow_sub_one_eq_mod]
    omega
  · simp only [IpSiteConnectProtocol.compute, IpSiteConnectProtocol.is_wakeup, ipscDerived, PyVal.bool.injEq]
    rw [← Bool.decide_or, ← Bool.decide_or, decide_eq_decide, resolveEnum_eq_known, resolveEnum_eq_known, resolveEnum_eq_known]
    simp only [PyEnum.value, IpSiteConnectProtocol.CallTypes.toNat, IpSiteConnectProtocol.SlotTypes.toNat, u16be, Nat.reduceAdd]
    omega

example : ∃ x, fromBytes IpSiteConnectProtocol.read (List.replicate 2 0 ++ [0x5A, 0x5A] ++ List.replicate 68 7) = .ok x ∧
    x.compute .source_radio_id = ipscDerived (List.replicate 2 0 ++ [0x5A, 0x5A] ++ List.replicate 68 7) .source_radio_id := by
  obtain ⟨x, hx⟩ := (C19_accept (List.replicate 2 0 ++ [0x5A, 0x5A] ++ List.replicate 68 7)).1.mpr (by decide)
  exact ⟨x, hx, C20_value hx _⟩

theorem Property.cache_inj {p p' : IpSiteConnectProtocol.Property} (h : p.cache = p'.cache) : p = p' := by
  revert p p'
  intro p p'
  cases p <;> cases p' <;> simp [IpSiteConnectProtocol.Property.cache]

/-- The cache attributes that exist after the properties `ps` have been accessed, in order of their first access. -/
def cachesAfter (f : IpSiteConnectProtocol.Property → PyVal) (done : List IpSiteConnectProtocol.Property) :
    List IpSiteConnectProtocol.Property → List (String × PyVal)
  | [] => []
  | p :: ps => if p ∈ done then cachesAfter f done ps else (p.cache, f p) :: cachesAfter f (p :: done) ps

theorem accesses_eq (x : IpSiteConnectProtocol) (ps : List IpSiteConnectProtocol.Property) :
    ∀ (done : List IpSiteConnectProtocol.Property) (caches : List (String × PyVal)),
      (∀ p, caches.lookup p.cache = if p ∈ done then some (x.compute p) else none) →
      IpSiteConnectProtocol.Obj.accesses ⟨x, caches⟩ ps =
        (ps.map x.compute, ⟨x, caches ++ cachesAfter x.compute done ps⟩) := by
  induction ps with
  | nil => intro done caches _; simp [IpSiteConnectProtocol.Obj.accesses, cachesAfter]
  | cons p ps ih =>
    intro done caches hc
    unfold IpSiteConnectProtocol.Obj.accesses IpSiteConnectProtocol.Obj.access
    by_cases hp : p ∈ done
    · have : caches.lookup p.cache = some (x.compute p) := by rw [hc p, if_pos hp]
      simp only [this]
      rw [ih done caches hc]
      simp [cachesAfter, hp]
    · have : caches.lookup p.cache = none := by rw [hc p, if_neg hp]
      simp only [this]
      rw [ih (p :: done) (caches ++ [(p.cache, x.compute p)]) ?_]
      · simp [cachesAfter, hp]
      · intro p'
        rw [List.lookup_append, hc p']
        by_cases hp' : p' ∈ done
        · rw [if_pos hp', if_pos (List.mem_cons_of_mem _ hp')]; rfl
        · rw [if_neg hp']
          by_cases he : p' = p
          · subst he
            rw [if_pos (List.mem_cons_self ..)]
            simp [List.lookup]
          · have hn : ¬ p' ∈ p :: done := by simp [he, hp']
            have hb : (p'.cache == p.cache) = false := by
              rw [beq_eq_false_iff_ne]; exact fun h => he (Property.cache_inj h)
            rw [if_neg hn]
            simp [List.lookup, hb]

/-- C20: whatever the history of accesses, every access returns the documented value of its property, no attribute changes,
and the only thing added to the object are the caches of the properties accessed, each once, with that value. -/
theorem C20_history {b : Bytes} {x : IpSiteConnectProtocol} (h : fromBytes IpSiteConnectProtocol.read b = .ok x)
    (history : List IpSiteConnectProtocol.Property) :
    let r := IpSiteConnectProtocol.Obj.accesses ⟨x, []⟩ history
    r.1 = history.map (ipscDerived b) ∧ r.2.attrs = x ∧ r.2.caches = cachesAfter (ipscDerived b) [] history := by
  have hf : x.compute = ipscDerived b := funext fun p => C20_value h p
  have := accesses_eq x history [] [] (by intro p; simp [List.lookup])
  rw [this, hf]
  exact ⟨rfl, rfl, by simp⟩

/-- C20: histories with the same properties in the same order of first access leave the same object behind, e.g. accessing
a property again changes nothing. -/
theorem C20_again {b : Bytes} {x : IpSiteConnectProtocol} (h : fromBytes IpSiteConnectProtocol.read b = .ok x)
    (history : List IpSiteConnectProtocol.Property) (p : IpSiteConnectProtocol.Property) (hp : p ∈ history) :
    ((IpSiteConnectProtocol.Obj.accesses ⟨x, []⟩ history).2).access p =
      (ipscDerived b p, (IpSiteConnectProtocol.Obj.accesses ⟨x, []⟩ history).2) := by
  have hf : x.compute = ipscDerived b := funext fun p => C20_value h p
  have h1 := accesses_eq x history [] [] (by intro p; simp [List.lookup])
  rw [h1, ← hf]
  have key : ∀ (ps done : List IpSiteConnectProtocol.Property), p ∈ ps → p ∉ done →
      (cachesAfter x.compute done ps).lookup p.cache = some (x.compute p) := by
    intro ps
    induction ps with
    | nil => intro _ h; cases h
    | cons q ps ih =>
      intro done hm hd
      unfold cachesAfter
      by_cases hq : q ∈ done
      · rw [if_pos hq]
        rcases List.mem_cons.mp hm with rfl | hm
        · exact absurd hq hd
        · exact ih done hm hd
      · rw [if_neg hq]
        by_cases he : p = q
        · subst he; simp [List.lookup]
        · have hb : (p.cache == q.cache) = false := by
            rw [beq_eq_false_iff_ne]; exact fun h => he (Property.cache_inj h)
          simp only [List.lookup, hb]
          refine ih (q :: done) ((List.mem_cons.mp hm).resolve_left he) ?_
          simp [he, hd]
  unfold IpSiteConnectProtocol.Obj.access
  simp only [List.nil_append]
  rw [key history [] hp (by simp)]

/-- The packet of `okdmr/tests`-like shape: 72 bytes, call type 2. -/
def wakeupPacket : Bytes :=
  List.replicate 2 0 ++ [0x5A, 0x5A] ++ List.replicate 16 0 ++ [0xF7] ++ List.replicate 41 0 ++ [2, 0, 1, 2, 3, 0, 4, 5, 6, 0]

example : ∃ x, fromBytes IpSiteConnectProtocol.read wakeupPacket = .ok x ∧
    (IpSiteConnectProtocol.Obj.accesses ⟨x, []⟩ [.is_wakeup, .source_radio_id, .is_wakeup, .color_code]).1 =
      [.bool true, .int 394500, .bool true, .int 7] := by
  obtain ⟨x, hx⟩ := (C19_accept wakeupPacket).1.mpr (by decide)
  refine ⟨x, hx, ?_⟩
  rw [(C20_history hx _).1]
  rfl

/-- Beside C20: reading `is_wakeup` a third time. -/
example : ∃ x, fromBytes IpSiteConnectProtocol.read wakeupPacket = .ok x ∧
    (((IpSiteConnectProtocol.Obj.accesses ⟨x, []⟩ [.is_wakeup, .source_radio_id, .is_wakeup]).2).access .is_wakeup).1 = .bool true := by
  obtain ⟨x, hx⟩ := (C19_accept wakeupPacket).1.mpr (by decide)
  refine ⟨x, hx, ?_⟩
  rw [C20_again hx _ .is_wakeup (by simp)]
  rfl

/-! ### C08 -/

theorem opcode_eq (s : Stream) (h : 0 < s.buf.length) :
    LocationProtocol.computeOpcode s =
      (.ok (resolveEnum _ (u8 s.buf 0)), { buf := s.buf, pos := s.pos, bits := 0, bitsLeft := 0 }) := by
  simp only [LocationProtocol.computeOpcode, Bind.bind, Rd.bind, posIo, seekIo, asEnum, readU1, readBytes, alignToByte,
    readBytesNotAligned, Pure.pure, Rd.pure, List.drop_zero]
  have h1 : 1 ≤ (s.buf.take 1).length := by rw [List.length_take]; omega
  rw [if_pos (by rw [List.length_take]; omega)]
  match hs : s.buf with
  | [] => rw [hs] at h; cases h
  | x :: xs => rfl

/-- C08: on whatever stream the message was parsed from (its own, or that of the frame that contains it), every access to
`opcode` names the first byte of the whole data, and the stream stays where it was. -/
theorem C08_history (m : LocationProtocol) (s : Stream) (h : 0 < s.buf.length) (n : Nat) :
    let r := LocationProtocol.Obj.accessesOpcode ⟨m, none, s⟩ n
    r.1 = List.replicate n (.ok (resolveEnum _ (u8 s.buf 0))) ∧ r.2.attrs = m ∧ r.2.io.buf = s.buf ∧ r.2.io.pos = s.pos := by
  have hit : ∀ (n : Nat) (o : LocationProtocol.Obj) (v), o.m_opcode = some v →
      LocationProtocol.Obj.accessesOpcode o n = (List.replicate n (.ok v), o) := by
    intro n
    induction n with
    | zero => intro o v _; rfl
    | succ n ih =>
      intro o v ho
      unfold LocationProtocol.Obj.accessesOpcode LocationProtocol.Obj.accessOpcode
      simp only [ho]
      rw [ih o v ho]
      rfl
  cases n with
  | zero => exact ⟨rfl, rfl, rfl, rfl⟩
  | succ n =>
    unfold LocationProtocol.Obj.accessesOpcode LocationProtocol.Obj.accessOpcode
    simp only [opcode_eq s h]
    rw [hit n _ _ rfl]
    exact ⟨rfl, rfl, rfl, rfl⟩

example := C08_history ⟨.known .standard_request, 8, none⟩ ⟨[8, 0xA0, 0x01, 0, 8], 5, 0, 0⟩ (by decide) 3

/-- Where a successful parse leaves the stream: at the end of the object, with no bits pending. -/
theorem stream_after {r : Rd α} {f : Bytes → Nat → Parsed α} (hp : Parses r f) {b : Bytes} {x : α} {s : Stream}
    (h : r (Stream.new b) = (.ok x, s)) : ∃ e, f b 0 = .ok (x, e) ∧ s = ⟨b, e, 0, 0⟩ := by
  have h0 := hp.run b 0 (by omega)
  rw [Nat.mul_zero, ← Stream.new_eq_at, Rd.eval, h] at h0
  rcases hf : f b 0 with err | ⟨y, e⟩
  · rw [hf] at h0; cases h0
  · rw [hf] at h0
    simp only [lift, Except.ok.injEq, Prod.mk.injEq] at h0
    obtain ⟨rfl, rfl⟩ := h0
    exact ⟨e, rfl, Stream.at_byte b e⟩

/-- The documented service families, by the first byte of a message. -/
def serviceFamily (v : Nat) : EnumVal LocationProtocol.LpGeneralTypes :=
  match v with
  | 0xA0 => .known .standard_location_immediate_service
  | 0xB0 => .known .emergency_location_reporting_service
  | 0xC0 => .known .triggered_location_reporting_service
  | 0xD0 => .known .condition_triggered_reporting_service
  | 0xE0 => .known .rssi_report_configuring_service
  | v => .raw v

theorem serviceFamily_eq (v : Nat) : resolveEnum LocationProtocol.LpGeneralTypes v = serviceFamily v := by
  unfold serviceFamily
  split
  all_goals first | decide | skip
  rename_i h1 h2 h3 h4 h5
  rw [resolveEnum_eq_raw]
  refine ⟨rfl, fun e => ?_⟩
  have hb : v ≠ 0xA0 ∧ v ≠ 0xB0 ∧ v ≠ 0xC0 ∧ v ≠ 0xD0 ∧ v ≠ 0xE0 := ⟨h1, h2, h3, h4, h5⟩
  cases e <;> simp only [PyEnum.value, LocationProtocol.LpGeneralTypes.toNat] <;> omega

/-- C08: a message parsed on its own: every access names the service family of its own first byte; its attributes and the
position of the stream do not change. -/
theorem C08_standalone {b : Bytes} {m : LocationProtocol} {s : Stream} (h : LocationProtocol.read (Stream.new b) = (.ok m, s))
    (n : Nat) :
    let r := LocationProtocol.Obj.accessesOpcode ⟨m, none, s⟩ n
    r.1 = List.replicate n (.ok (serviceFamily (u8 b 0))) ∧ r.2.attrs = m ∧ r.2.io.pos = s.pos ∧ r.2.io.buf = b := by
  obtain ⟨e, hf, rfl⟩ := stream_after LocationProtocol.parses h
  have hl : 0 < b.length := by
    rw [LocationProtocol.spec] at hf
    obtain ⟨h4, _⟩ := of_upTo_ok hf
    omega
  obtain ⟨h1, h2, h3, h4⟩ := C08_history m ⟨b, e, 0, 0⟩ hl n
  rw [serviceFamily_eq] at h1
  exact ⟨h1, h2, h4, h3⟩

/-- C08: a location message inside an HDAP frame (so that the first byte of the data is 08 or 88): the property never is a
service family, whatever the message. -/
theorem C08_in_hdap {b : Bytes} {x : HyteraDmrApplicationProtocol} {s : Stream}
    (h : HyteraDmrApplicationProtocol.read (Stream.new b) = (.ok x, s)) {m : LocationProtocol}
    (hm : x.data = some (.locationProtocol m)) (n : Nat) :
    (LocationProtocol.Obj.accessesOpcode ⟨m, none, s⟩ n).1 = List.replicate n (.ok (.raw (u8 b 0))) ∧ u8 b 0 ∈ [0x08, 0x88] := by
  obtain ⟨e, hf, rfl⟩ := stream_after HyteraDmrApplicationProtocol.parses h
  have hpa := HyteraDmrApplicationProtocol.parses.parseAt b 0 (by omega)
  rw [hf, C15_layout b 0 (by omega)] at hpa
  split at hpa
  · cases hpa
  rename_i hl
  have hp : u8 b 0 % 128 = 0x08 := by
    rcases hma : messageAt (u8 b 0 % 128) b (0 + 1) with err | ⟨d, e1⟩
    · rw [hma] at hpa; cases hpa
    rw [hma] at hpa
    simp only at hpa
    split at hpa
    · cases hpa
    split at hpa
    · cases hpa
    cases hpa
    simp only at hm
    subst hm
    unfold messageAt at hma
    by_contra hne
    rw [if_neg hne] at hma
    repeat' split at hma
    all_goals
      first
      | (obtain ⟨_, _, hc⟩ := of_as_ok hma; cases hc; done)
      | cases hma
  have hlt := u8_lt b 0
  have hv : u8 b 0 = 0x08 ∨ u8 b 0 = 0x88 := by omega
  obtain ⟨h1, _⟩ := C08_history m ⟨b, e, 0, 0⟩ (by simp only; omega) n
  simp only at h1
  refine ⟨?_, by rcases hv with h | h <;> simp [h]⟩
  rw [h1, serviceFamily_eq]
  rcases hv with h | h <;> rw [h] <;> rfl

/-- C08: inside an HRNP packet the property is always the number 7E. -/
theorem C08_in_hrnp {b : Bytes} {x : HyteraRadioNetworkProtocol} {s : Stream}
    (h : HyteraRadioNetworkProtocol.read (Stream.new b) = (.ok x, s)) (m : LocationProtocol) (n : Nat) :
    (LocationProtocol.Obj.accessesOpcode ⟨m, none, s⟩ n).1 = List.replicate n (.ok (.raw 0x7E)) := by
  obtain ⟨e, hf, rfl⟩ := stream_after HyteraRadioNetworkProtocol.parses h
  rw [HyteraRadioNetworkProtocol.spec] at hf
  obtain ⟨h1, h2, _⟩ := of_fixedAt_ok hf
  simp only [List.length_cons, List.length_nil, Nat.zero_add] at h1 h2
  have hv : u8 b 0 = 0x7E := (slice_one_eq b 0 0x7E (by omega)).mp h2
  obtain ⟨h3, _⟩ := C08_history m ⟨b, e, 0, 0⟩ (by simp only; omega) n
  simp only at h3
  rw [h3, hv]
  rfl

/-- C08: inside an HSTRP packet the property is always the number 32. -/
theorem C08_in_hstrp {b : Bytes} {x : HyteraSimpleTransportReliabilityProtocol} {s : Stream}
    (h : HyteraSimpleTransportReliabilityProtocol.read (Stream.new b) = (.ok x, s)) (m : LocationProtocol) (n : Nat) :
    (LocationProtocol.Obj.accessesOpcode ⟨m, none, s⟩ n).1 = List.replicate n (.ok (.raw 0x32)) := by
  obtain ⟨e, hf, rfl⟩ := stream_after HyteraSimpleTransportReliabilityProtocol.parses h
  rw [HyteraSimpleTransportReliabilityProtocol.spec] at hf
  obtain ⟨h1, h2, _⟩ := of_fixedAt_ok hf
  simp only [List.length_cons, List.length_nil, Nat.zero_add] at h1 h2
  have hv : u8 b 0 = 0x32 := by
    match b, h2 with
    | x :: _, h2 =>
      simp only [slice, List.drop_zero, Nat.reduceAdd, List.take_succ_cons, List.cons.injEq] at h2
      rw [h2.1]
      rfl
  obtain ⟨h3, _⟩ := C08_history m ⟨b, e, 0, 0⟩ (by simp only; omega) n
  simp only at h3
  rw [h3, hv]
  rfl

theorem read_of_spec {r : Rd α} {f : Bytes → Nat → Parsed α} (hp : Parses r f) {b : Bytes} {x : α} {e : Nat}
    (h : f b 0 = .ok (x, e)) : r (Stream.new b) = (.ok x, ⟨b, e, 0, 0⟩) := by
  have h0 := hp.run b 0 (by omega)
  rw [Nat.mul_zero, ← Stream.new_eq_at, Rd.eval, h] at h0
  rcases hr : r (Stream.new b) with ⟨err | y, s⟩
  · rw [hr] at h0; cases h0
  · rw [hr] at h0
    simp only [lift, Except.ok.injEq, Prod.mk.injEq] at h0
    rw [h0.1, h0.2, Stream.at_byte]

/-- C08 is not vacuous: the same message alone and in a frame. -/
example : ∃ m s, LocationProtocol.read (Stream.new [0xA0, 0xFF, 0, 0]) = (.ok m, s) ∧
    (LocationProtocol.Obj.accessesOpcode ⟨m, none, s⟩ 2).1 =
      [.ok (.known .standard_location_immediate_service), .ok (.known .standard_location_immediate_service)] := by
  have h := read_of_spec LocationProtocol.parses (b := [0xA0, 0xFF, 0, 0]) (x := ⟨.raw 0xA0FF, 0, none⟩) (e := 4) (by decide +kernel)
  exact ⟨_, _, h, by rw [(C08_standalone h 2).1]; rfl⟩
example : ∃ x s m, HyteraDmrApplicationProtocol.read (Stream.new [0x08, 0xA0, 0xFF, 0, 0, 0x99, 3]) = (.ok x, s) ∧
    x.data = some (.locationProtocol m) ∧
    (LocationProtocol.Obj.accessesOpcode ⟨m, none, s⟩ 2).1 = [.ok (.raw 8), .ok (.raw 8)] := by
  have h := read_of_spec HyteraDmrApplicationProtocol.parses (b := [0x08, 0xA0, 0xFF, 0, 0, 0x99, 3])
    (x := ⟨false, .known .location_protocol, some (.locationProtocol ⟨.raw 0xA0FF, 0, none⟩), 0x99, [3]⟩) (e := 7) (by decide +kernel)
  exact ⟨_, _, _, h, rfl, by rw [(C08_in_hdap h rfl 2).1]; rfl⟩

/-- An HRNP packet with a location message in it. -/
example : ∃ x s m f, HyteraRadioNetworkProtocol.read (Stream.new ([0x7E, 4, 0, 0, 0x20, 0x10, 0, 0, 0, 19, 0xD2, 0x10] ++
      [0x08, 0xA0, 0xFF, 0, 0, 0x99, 3])) = (.ok x, s) ∧ x.data = some f ∧ f.data = some (.locationProtocol m) ∧
    (LocationProtocol.Obj.accessesOpcode ⟨m, none, s⟩ 2).1 = [.ok (.raw 0x7E), .ok (.raw 0x7E)] := by
  have h := read_of_spec HyteraRadioNetworkProtocol.parses (b := [0x7E, 4, 0, 0, 0x20, 0x10, 0, 0, 0, 19, 0xD2, 0x10] ++
      [0x08, 0xA0, 0xFF, 0, 0, 0x99, 3]) (x := ⟨[0x7E], 4, 0, resolveEnum _ 0, 0x20, 0x10, 0, 19, 0xD210,
        some ⟨false, .known .location_protocol, some (.locationProtocol ⟨.raw 0xA0FF, 0, none⟩), 0x99, [3]⟩⟩) (e := 19) (by decide +kernel)
  exact ⟨_, _, _, _, h, rfl, rfl, by rw [C08_in_hrnp h]; rfl⟩
/-- An HSTRP heartbeat. -/
example : ∃ x s, HyteraSimpleTransportReliabilityProtocol.read (Stream.new [0x32, 0x42, 0, 2, 0, 7]) = (.ok x, s) ∧
    (LocationProtocol.Obj.accessesOpcode ⟨⟨.raw 0xA0FF, 0, none⟩, none, s⟩ 2).1 = [.ok (.raw 0x32), .ok (.raw 0x32)] := by
  have h := read_of_spec HyteraSimpleTransportReliabilityProtocol.parses (b := [0x32, 0x42, 0, 2, 0, 7])
    (x := ⟨[0x32, 0x42], 0, 0, false, false, false, false, true, false, 7, none, none, none⟩) (e := 6) (by decide +kernel)
  exact ⟨_, _, h, by rw [C08_in_hstrp h]; rfl⟩

end Dmr.Hytera
