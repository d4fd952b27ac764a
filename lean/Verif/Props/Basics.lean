import Verif.Enums
import Verif.TextProofs
import Verif.Layout.Hytera
/-
C03 enumerations, C04 text, C05 radio addresses, C06 GPS records.
-/

namespace Dmr

open Spec

/-! ### C03 -/

/-- C03: for every enumeration class of the library and every integer on the wire, the decoded field is the
unique member with that value, or, if there is no such member, the integer itself. -/
theorem C03_resolve : ∀ c ∈ libraryEnums, ∀ v : Nat,
    (∃ e : c.E, @resolveEnum c.E c.inst v = .known e ∧ @PyEnum.value c.E c.inst e = v ∧
      ∀ e' : c.E, @PyEnum.value c.E c.inst e' = v → e' = e) ∨
    (@resolveEnum c.E c.inst v = .raw v ∧ ∀ e : c.E, @PyEnum.value c.E c.inst e ≠ v) := by
  intro c hc v
  let _ := c.inst
  have : LawfulEnum c.E := libraryEnums_lawful c hc
  by_cases h : ∃ e : c.E, PyEnum.value e = v
  · obtain ⟨e, he⟩ := h
    exact .inl ⟨e, (resolveEnum_eq_known v e).mpr he.symm, he, fun e' he' => PyEnum.value_inj (he'.trans he.symm)⟩
  · have h' : ∀ e : c.E, PyEnum.value e ≠ v := fun e he => h ⟨e, he⟩
    exact .inr ⟨(resolveEnum_eq_raw v v).mpr ⟨rfl, h'⟩, h'⟩

example := C03_resolve libraryEnums[20] (List.getElem_mem (by decide)) 0x7f

/-- C03: the integer on the wire is recoverable from the field (`x.value` of a member, `x` otherwise), and two
different codes never decode to the same field value. -/
theorem C03_recover : ∀ c ∈ libraryEnums, ∀ v w : Nat,
    (match @resolveEnum c.E c.inst v with | .known e => @PyEnum.value c.E c.inst e | .raw n => n) = v ∧
    (@resolveEnum c.E c.inst v = @resolveEnum c.E c.inst w → v = w) := by
  intro c _ v w
  let _ := c.inst
  refine ⟨?_, fun h => resolveEnum_inj h⟩
  have h := toInt_resolveEnum (E := c.E) v
  rcases hx : resolveEnum c.E v with e | n <;> rw [hx] at h <;> exact h

example := C03_recover libraryEnums[21] (List.getElem_mem (by decide)) 3 4

/-- C03: no enumeration of the library has two members with the same value (which would make one of them
an alias that never is decoded), and the listed members are all there are. -/
theorem C03_distinct : ∀ c ∈ libraryEnums,
    (∀ a b : c.E, @PyEnum.value c.E c.inst a = @PyEnum.value c.E c.inst b → a = b) ∧
    (∀ e : c.E, e ∈ @PyEnum.all c.E c.inst) := by
  intro c hc
  let _ := c.inst
  have : LawfulEnum c.E := libraryEnums_lawful c hc
  exact ⟨fun a b => PyEnum.value_inj, LawfulEnum.complete⟩

example := C03_distinct libraryEnums[22] (List.getElem_mem (by decide))

/-- The list is not empty and contains both kinds of codes. -/
example : libraryEnums.length = 65 := by decide
example : resolveEnum Hytera.RadioRegistrationService.RrsTypes 0x80 = .known .registration_ack ∧
    resolveEnum Hytera.RadioRegistrationService.RrsTypes 0x7f = .raw 0x7f := by decide

/-! ### C04 -/

/-- `enc` is the encoding and `dec` the decoder used by the library: decoding accepts exactly the encodings, and
returns the string that was encoded. -/
def ExactCodec (dec : Bytes → Option PyStr) (enc : PyStr → Option Bytes) : Prop :=
  ∀ b s, dec b = some s ↔ enc s = some b

theorem exact_ascii : ExactCodec decodeAscii encAscii := decodeAscii_iff
theorem exact_utf8 : ExactCodec decodeUtf8 (fun s => some (encUtf8 s)) := by
  intro b s; rw [decodeUtf8_iff]; simp
theorem exact_utf16le : ExactCodec decodeUtf16le (fun s => some (encUtf16le s)) := by
  intro b s; rw [decodeUtf16le_iff]; simp
theorem exact_utf16be : ExactCodec decodeUtf16be (fun s => some (encUtf16be s)) := by
  intro b s; rw [decodeUtf16be_iff]; simp

/-- The four codecs of the library, each with its encoding. -/
def libraryCodecs : List ((Bytes → Option PyStr) × (PyStr → Option Bytes)) :=
  [(decodeAscii, encAscii), (decodeUtf8, fun s => some (encUtf8 s)),
   (decodeUtf16le, fun s => some (encUtf16le s)), (decodeUtf16be, fun s => some (encUtf16be s))]

/-- C04: reading a text field (`r` fetches its bytes, in any stream state) raises what `r` raises; otherwise it
returns the unique string whose encoding is the fetched bytes, or UnicodeDecodeError if no string has that encoding. -/
theorem C04_text : ∀ c ∈ libraryCodecs, ∀ (r : Rd Bytes) (s : Stream),
    match (r s).1 with
    | .error e => (decodeWith c.1 r s).1 = .error e
    | .ok b =>
      (∃ t, (decodeWith c.1 r s).1 = .ok t ∧ c.2 t = some b ∧ ∀ t', c.2 t' = some b → t' = t) ∨
      ((decodeWith c.1 r s).1 = .error .unicode ∧ ∀ t, c.2 t ≠ some b) := by
  intro c hc r s
  have H : ExactCodec c.1 c.2 := by
    simp only [libraryCodecs, List.mem_cons, List.not_mem_nil, or_false] at hc
    rcases hc with rfl | rfl | rfl | rfl
    exacts [exact_ascii, exact_utf8, exact_utf16le, exact_utf16be]
  show match (r s).1 with
    | .error e => (Rd.bind r _ s).1 = .error e
    | .ok b => (∃ t, (Rd.bind r _ s).1 = .ok t ∧ _) ∨ ((Rd.bind r _ s).1 = .error .unicode ∧ _)
  unfold Rd.bind
  rcases hr : r s with ⟨e | b, s'⟩
  · rfl
  · simp only
    rcases hd : c.1 b with _ | t
    · refine .inr ⟨rfl, fun t ht => ?_⟩
      have := (H b t).mpr ht
      rw [hd] at this; cases this
    · refine .inl ⟨t, rfl, (H b t).mp hd, fun t' ht' => ?_⟩
      have := (H b t').mpr ht'
      rw [hd] at this; cases this; rfl

/-- A text of three characters read from the middle of a stream. -/
example := C04_text (decodeUtf16le, fun s => some (encUtf16le s)) (by simp [libraryCodecs]) (readBytes 8)
  ⟨[0x00, 0x41, 0x00, 0x7d, 0x01, 0x3d, 0xd8, 0x00, 0xde], 1, 0, 0⟩

/-- C04: the text decoders accept every encoded string and give it back. -/
theorem C04_roundtrip : ∀ c ∈ libraryCodecs, ∀ (t : PyStr) (b : Bytes), c.2 t = some b → c.1 b = some t := by
  intro c hc t b h
  simp only [libraryCodecs, List.mem_cons, List.not_mem_nil, or_false] at hc
  rcases hc with rfl | rfl | rfl | rfl
  exacts [(exact_ascii b t).mpr h, (exact_utf8 b t).mpr h, (exact_utf16le b t).mpr h, (exact_utf16be b t).mpr h]

example := C04_roundtrip (decodeUtf8, fun s => some (encUtf8 s)) (by simp [libraryCodecs]) ['A', 'Ž'] [0x41, 0xC5, 0xBD] (by decide)

/-- "AŽ" and an emoji outside the basic plane; a lone surrogate and an overlong form are rejected. -/
example : decodeUtf16le [0x41, 0x00, 0x7d, 0x01, 0x3d, 0xd8, 0x00, 0xde] = some ['A', 'Ž', '😀'] := by decide
example : decodeUtf16le [0x3d, 0xd8] = none := by decide
example : decodeUtf8 [0xC0, 0x80] = none := by decide
example : decodeUtf8 [0x41, 0xC5, 0xBD] = some ['A', 'Ž'] := by decide

namespace Hytera

/-! ### C05 -/

/-- C05: four bytes `a.b.c.d` are subnet `a`, radio id `b*65536+c*256+d` and the text "a.b.c.d"; fewer bytes raise
EOFError. -/
theorem C05_radio_ip (a b c d : UInt8) (rest : Bytes) :
    ∃ x, fromBytes RadioIp.read (a :: b :: c :: d :: rest) = .ok x ∧ x.subnet = a.toNat ∧
      x.radio_id = b.toNat * 65536 + c.toNat * 256 + d.toNat ∧
      x.radio_ip = s!"{a.toNat}.{b.toNat}.{c.toNat}.{d.toNat}".toList := by
  have h := RadioIp.fixed.fromBytes (a :: b :: c :: d :: rest)
  rw [if_pos (by simp only [List.length_cons]; omega)] at h
  refine ⟨_, h, rfl, ?_, ?_⟩
  · simp [RadioIp.radio_id, RadioIp.spec, u8, Nat.shiftLeft_eq]
  · simp [RadioIp.radio_ip, RadioIp.spec, u8, toString, Nat.repr]

theorem C05_short (b : Bytes) :
    (fromBytes RadioIp.read b = .error .eof ↔ b.length < 4) ∧ (fromBytes RadioId.read b = .error .eof ↔ b.length < 4) := by
  rw [RadioIp.fixed.fromBytes, RadioId.fixed.fromBytes]
  by_cases h : 4 ≤ b.length
  · simp [h]
  · simp [h]; omega

/-- The value of a decimal text. -/
def digitsValue (s : List Char) : Nat := s.foldl (fun v c => v * 10 + (c.toNat - 48)) 0

set_option maxRecDepth 100000 in
theorem byte_digits : ∀ n, n < 256 →
    digitsValue (Nat.toDigits 10 n) = n ∧ ∀ c ∈ Nat.toDigits 10 n, c ≠ '.' := by
  decide

/-- A text without dots is determined by a text with a dot after it. -/
theorem split_dot {a b : List Char} {r s : List Char} (ha : ∀ c ∈ a, c ≠ '.') (hb : ∀ c ∈ b, c ≠ '.')
    (h : a ++ '.' :: r = b ++ '.' :: s) : a = b ∧ r = s := by
  induction a generalizing b with
  | nil =>
    cases b with
    | nil => exact ⟨rfl, by simpa using h⟩
    | cons y ys =>
      simp only [List.nil_append, List.cons_append, List.cons.injEq] at h
      exact absurd h.1.symm (hb y (by simp))
  | cons x xs ih =>
    cases b with
    | nil =>
      simp only [List.nil_append, List.cons_append, List.cons.injEq] at h
      exact absurd h.1 (ha x (by simp))
    | cons y ys =>
      simp only [List.cons_append, List.cons.injEq] at h
      have := ih (fun c hc => ha c (List.mem_cons_of_mem _ hc)) (fun c hc => hb c (List.mem_cons_of_mem _ hc)) h.2
      exact ⟨by rw [h.1, this.1], this.2⟩

theorem RadioIp.spec_lt (b : Bytes) (q : Nat) : (RadioIp.spec b q).subnet < 256 ∧ (RadioIp.spec b q).radio_id_1 < 256 ∧
    (RadioIp.spec b q).radio_id_2 < 256 ∧ (RadioIp.spec b q).radio_id_3 < 256 := by
  simp only [RadioIp.spec, u8]
  exact ⟨UInt8.toNat_lt _, UInt8.toNat_lt _, UInt8.toNat_lt _, UInt8.toNat_lt _⟩

/-- C05: the dotted text determines the address: two decoded addresses with the same text have the same four
attributes. -/
theorem C05_text_injective (b b' : Bytes) (x y : RadioIp) (hx : fromBytes RadioIp.read b = .ok x)
    (hy : fromBytes RadioIp.read b' = .ok y) (h : x.radio_ip = y.radio_ip) : x = y := by
  rw [RadioIp.fixed.fromBytes] at hx hy
  split at hx
  · split at hy
    · cases hx; cases hy
      obtain ⟨a1, a2, a3, a4⟩ := RadioIp.spec_lt b 0
      obtain ⟨b1, b2, b3, b4⟩ := RadioIp.spec_lt b' 0
      generalize RadioIp.spec b 0 = x at *
      generalize RadioIp.spec b' 0 = y at *
      obtain ⟨p1, q1⟩ := byte_digits _ a1
      obtain ⟨p2, q2⟩ := byte_digits _ a2
      obtain ⟨p3, q3⟩ := byte_digits _ a3
      obtain ⟨p4, q4⟩ := byte_digits _ a4
      obtain ⟨r1, s1⟩ := byte_digits _ b1
      obtain ⟨r2, s2⟩ := byte_digits _ b2
      obtain ⟨r3, s3⟩ := byte_digits _ b3
      obtain ⟨r4, s4⟩ := byte_digits _ b4
      have e : ".".toList = ['.'] := by decide
      simp only [RadioIp.radio_ip, e, List.append_assoc, List.singleton_append] at h
      obtain ⟨e1, h⟩ := split_dot q1 s1 h
      obtain ⟨e2, h⟩ := split_dot q2 s2 h
      obtain ⟨e3, e4⟩ := split_dot q3 s3 h
      rw [e1] at p1; rw [e2] at p2; rw [e3] at p3; rw [e4] at p4
      obtain ⟨x1, x2, x3, x4⟩ := x
      obtain ⟨y1, y2, y3, y4⟩ := y
      simp only at *
      congr
      · exact p1.symm.trans r1
      · exact p2.symm.trans r2
      · exact p3.symm.trans r3
      · exact p4.symm.trans r4
    · cases hy
  · cases hx

/-- Two streams with the same address and different bytes after it. -/
example := C05_text_injective [10, 0, 1, 80] [10, 0, 1, 80, 7] _ _ rfl rfl rfl

/-- C05: `RadioId` drops the first byte and reads the other three little-endian. -/
theorem C05_radio_id (a b c d : UInt8) (rest : Bytes) :
    ∃ x, fromBytes RadioId.read (a :: b :: c :: d :: rest) = .ok x ∧
      x.radio_id = b.toNat + c.toNat * 256 + d.toNat * 65536 := by
  have h := RadioId.fixed.fromBytes (a :: b :: c :: d :: rest)
  rw [if_pos (by simp only [List.length_cons]; omega)] at h
  refine ⟨_, h, ?_⟩
  simp only [RadioId.radio_id, RadioId.spec, u32le, u8, Nat.shiftRight_eq_div_pow]
  have := a.toNat_lt
  simp; omega

example : (fromBytes RadioIp.read [10, 0, 1, 80]).map (fun x => (x.radio_id, String.ofList x.radio_ip)) =
    .ok (336, "10.0.1.80") := by decide
example : (fromBytes RadioId.read [9, 80, 1, 0]).map RadioId.radio_id = .ok 336 := by decide

/-! ### C06 -/

/-- C06: a GPS record needs 40 bytes; its fields are the adjacent slices of sizes 1,6,6,1,9,1,10,3,3. -/
theorem C06_layout (b : Bytes) :
    fromBytes Gpsdata.read b =
      if 40 ≤ b.length then
        .ok { gps_status := slice b 0 1, gps_time := slice b 1 6, gps_date := slice b 7 6,
              north_south := slice b 13 1, latitude := slice b 14 9, east_west := slice b 23 1,
              longitude := slice b 24 10, speed := slice b 34 3, direction := slice b 37 3 }
      else .error .eof := by
  rw [Gpsdata.fixed.fromBytes]; rfl

theorem slice_append_slice (b : Bytes) (o m n : Nat) : slice b o m ++ slice b (o + m) n = slice b o (m + n) := by
  simp only [slice, ← List.drop_drop]
  rw [List.take_add]

/-- C06: nothing is skipped and nothing overlaps: the fields concatenate to the first 40 bytes. -/
theorem C06_partition (b : Bytes) (x : Gpsdata) (h : fromBytes Gpsdata.read b = .ok x) :
    x.gps_status ++ x.gps_time ++ x.gps_date ++ x.north_south ++ x.latitude ++ x.east_west ++ x.longitude ++
      x.speed ++ x.direction = b.take 40 := by
  rw [C06_layout] at h
  split at h
  · cases h
    simp only [slice_append_slice b 0]
    simp [slice]
  · cases h

example := C06_partition (0x41 :: List.replicate 39 0x30) _ rfl

/-- C06: `gps_available` is true iff the status byte is 'A' and raises UnicodeDecodeError iff it is not ASCII. -/
theorem C06_available (b : Bytes) (x : Gpsdata) (h : fromBytes Gpsdata.read b = .ok x) :
    x.gps_available = if 128 ≤ u8 b 0 then .error .unicode else .ok (u8 b 0 == 0x41) := by
  rw [C06_layout] at h
  split at h
  · rename_i hl
    cases h
    have hs : slice b 0 1 = [b.getD 0 0] := by
      cases b with
      | nil => simp at hl
      | cons x xs => simp [slice]
    have hlt : (b.getD 0 0).toNat < 256 := UInt8.toNat_lt _
    have hu : u8 b 0 = (b.getD 0 0).toNat := rfl
    rw [hu]
    simp only [Gpsdata.gps_available, hs, decodeAscii]
    by_cases hc : (b.getD 0 0).toNat < 128
    · rw [if_pos hc, if_neg (by omega)]
      simp only [Option.map_some]
      congr 1
      rw [Bool.eq_iff_iff, decide_eq_true_iff, beq_iff_eq]
      have e : "A".toList = ['A'] := by decide
      rw [e]
      constructor
      · intro h
        simp only [List.cons.injEq, and_true] at h
        have := congrArg Char.toNat h
        rw [toNat_ofNat_char _ (by left; omega)] at this
        exact this
      · intro h; rw [h]
    · have h' : 128 ≤ (b.getD 0 0).toNat := by omega
      rw [if_pos h']; simp only [if_neg hc]
  · cases h

example := C06_available (0x56 :: List.replicate 39 0x30) _ rfl

/-- A record of 40 bytes with status 'A'. -/
example : (fromBytes Gpsdata.read (0x41 :: List.replicate 39 0x30)).map Gpsdata.gps_available = .ok (.ok true) := by
  decide

end Hytera
end Dmr
