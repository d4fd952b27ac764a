import Verif.Spec.HomebrewEncode
import Verif.Props.HyteraFrames
import Verif.Props.Basics
import Verif.Layout.HomebrewVar
/-
C29, C30, C31, C32: Homebrew 2015 and MMDVM 2020 packets.
-/
set_option linter.unusedSimpArgs false
namespace Dmr.Homebrew

open Spec

/-- A packet made of a prefix, the fixed bytes `v` and a 32 bit big-endian number: how it decodes and how it fails. -/
def fixedThenNumber (b v : Bytes) (path : String) (packet : Nat → γ) : Except PyErr γ :=
  if b.length < 4 + v.length then .error .eof
  else if slice b 4 v.length ≠ v then .error (.validation path)
  else if b.length < 4 + v.length + 4 then .error .eof
  else .ok (packet (u32be b (4 + v.length)))

theorem magicThenId_eq (v : Bytes) (path : String) (mk : Bytes → Nat → α) (b : Bytes) (g : α × Nat → γ) (packet : Nat → γ)
    (hg : ∀ n e, g (mk v n, e) = packet n) :
    (magicThenId v path mk b 4).map g = fixedThenNumber b v path packet := by
  unfold magicThenId fixedThenNumber fixedAt upTo
  by_cases h1 : b.length < 4 + v.length
  · have h1' : ¬ (4 + v.length ≤ b.length) := by omega
    rw [if_pos h1, if_neg h1']; rfl
  have h1' : 4 + v.length ≤ b.length := by omega
  rw [if_neg h1, if_pos h1']
  by_cases h2 : slice b 4 v.length = v
  · have h2' : ¬ (slice b 4 v.length ≠ v) := by simp [h2]
    rw [if_pos h2, if_neg h2']
    by_cases h3 : b.length < 4 + v.length + 4
    · have h3' : ¬ (4 + v.length + 4 ≤ b.length) := by omega
      rw [if_pos h3, if_neg h3']; rfl
    · have h3' : 4 + v.length + 4 ≤ b.length := by omega
      rw [if_neg h3, if_pos h3', ← hg _ (4 + v.length + 4)]; rfl
  · rw [if_neg h2, if_pos h2]; rfl

theorem map_as {x : Parsed α} {f : α → β} {g : β × Nat → γ} : (x.as f).map g = x.map fun p => g (f p.1, p.2) := by
  rcases x with _ | ⟨_, _⟩ <;> rfl

theorem bitsAt_24 (b : Bytes) (q : Nat) (h : q + 3 ≤ b.length) : bitsAt b (8 * q) 24 = u24be b q := by
  rw [← beVal_slice b q 3 h, show (3 : Nat) = 1 + (1 + 1) from rfl, ← Hytera.slice_append_slice, ← Hytera.slice_append_slice,
    slice_one b q (by omega), slice_one b (q + 1) (by omega), slice_one b (q + 1 + 1) (by omega)]
  simp only [beVal, u24be, u8, List.cons_append, List.nil_append, List.length_cons, List.length_nil, show q + 1 + 1 = q + 2 from rfl]
  omega

theorem take_four (b : Bytes) : slice b 0 4 = b.take 4 := rfl

theorem decodeAscii_ok (b : Bytes) (h : ∀ x ∈ b, x.toNat < 128) : ∃ s, decodeAscii b = some s := by
  induction b with
  | nil => exact ⟨[], rfl⟩
  | cons x xs ih =>
    obtain ⟨s, hs⟩ := ih fun y hy => h y (List.mem_cons_of_mem _ hy)
    refine ⟨Char.ofNat x.toNat :: s, ?_⟩
    have hx := h x List.mem_cons_self
    have hc : (Char.ofNat x.toNat).toNat = x.toNat := toNat_ofNat_char _ (by omega)
    rw [decodeAscii_iff] at hs ⊢
    rw [encAscii, encAsciiChar, hc, if_pos hx, hs]
    simp

theorem encAscii_all {s : PyStr} {b : Bytes} (h : encAscii s = some b) : ∀ x ∈ b, x.toNat < 128 := by
  induction s generalizing b with
  | nil => cases h; simp
  | cons c cs ih =>
    rw [encAscii] at h
    rcases hc : encAsciiChar c with _ | u <;> rw [hc] at h
    · cases h
    rcases hs : encAscii cs with _ | v <;> rw [hs] at h
    · cases h
    cases h
    unfold encAsciiChar at hc
    split at hc
    · cases hc
      intro x hx
      rcases List.mem_append.mp hx with hx | hx
      · rw [List.mem_singleton.mp hx, toNat_ofNat_u8 _ (by omega)]; assumption
      · exact ih hs x hx
    · cases hc

theorem mem_slice_u8 {b : Bytes} {o n : Nat} {x : UInt8} (h : x ∈ slice b o n) :
    ∃ i, o ≤ i ∧ i < o + n ∧ i < b.length ∧ x.toNat = u8 b i := by
  obtain ⟨j, hj, rfl⟩ := List.mem_iff_getElem.mp h
  have hj' := hj
  rw [slice, List.length_take, List.length_drop] at hj'
  refine ⟨o + j, by omega, by omega, by omega, ?_⟩
  simp only [slice, List.getElem_take, List.getElem_drop, u8]
  simp [List.getElem?_eq_getElem (show o + j < b.length by omega)]

theorem u8_mem_slice {b : Bytes} {o n i : Nat} (h1 : o ≤ i) (h2 : i < o + n) (h3 : i < b.length) :
    b.getD i 0 ∈ slice b o n := by
  rw [List.mem_iff_getElem]
  refine ⟨i - o, ?_, ?_⟩
  · rw [slice, List.length_take, List.length_drop]; omega
  · simp only [slice, List.getElem_take, List.getElem_drop]
    have : o + (i - o) = i := by omega
    simp only [this]
    simp [List.getElem?_eq_getElem h3]

theorem drop_eq_slice (b : Bytes) (o : Nat) : b.drop o = slice b o b.length := by
  unfold slice; rw [List.take_of_length_le]; simp

theorem textAt_ascii (b : Bytes) (o n : Nat) (hl : o + n ≤ b.length) (h : ∀ i, o ≤ i → i < o + n → u8 b i < 128) :
    ∃ s, ∀ {γ : Type} (k : PyStr → Except PyErr γ), textAt decodeAscii b o n k = k s := by
  obtain ⟨s, hs⟩ := decodeAscii_ok (slice b o n) fun x hx => by
    obtain ⟨i, h1, h2, _, e⟩ := mem_slice_u8 hx
    rw [e]; exact h i h1 h2
  exact ⟨s, fun k => by rw [textAt, if_pos hl, hs]; rfl⟩

theorem decodeAscii_drop_ok (b : Bytes) (o : Nat) (h : ∀ i, o ≤ i → i < b.length → u8 b i < 128) :
    ∃ s, decodeAscii (b.drop o) = some s :=
  decodeAscii_ok _ fun x hx => by
    rw [drop_eq_slice] at hx
    obtain ⟨i, h1, _, h2, e⟩ := mem_slice_u8 hx
    rw [e]; exact h i h1 h2

theorem textAt_unicode {c : Bytes → Option PyStr} {b : Bytes} {o n : Nat} {k : PyStr → Except PyErr γ} (hl : o + n ≤ b.length)
    (h : ∀ s e, k s = .error e → e = .unicode) : ∀ e, textAt c b o n k = .error e → e = .unicode := by
  intro e
  rw [textAt, if_pos hl]
  rcases c (slice b o n) with _ | s
  · intro h; cases h; rfl
  · exact h s e

theorem encAscii_lt {s : PyStr} {b : Bytes} {o n : Nat} (h : encAscii s = some (slice b o n)) (hl : o + n ≤ b.length) (i : Nat)
    (h1 : o ≤ i) (h2 : i < o + n) : u8 b i < 128 :=
  encAscii_all h _ (u8_mem_slice h1 h2 (by omega))

theorem encAscii_drop_lt {s : PyStr} {b : Bytes} {o : Nat} (h : encAscii s = some (b.drop o)) (i : Nat)
    (h1 : o ≤ i) (h2 : i < b.length) : u8 b i < 128 := by
  rw [drop_eq_slice] at h
  exact encAscii_all h _ (u8_mem_slice h1 (by omega) h2)

/-! ### Homebrew2015 -/

theorem Homebrew2015.fromBytes_eq (b : Bytes) :
    fromBytes Homebrew2015.read b =
      if b.length < 4 then .error .eof
      else decoded (decodeUtf8 (b.take 4)) fun p => (Homebrew2015.bodySpec p b 4).map fun d => { command_prefix := p, command_data := d.1 } := by
  rw [Homebrew2015.parses.fromBytes, Homebrew2015.spec, textAt, Nat.zero_add, take_four]
  by_cases h : b.length < 4
  · have h' : ¬ (4 ≤ b.length) := by omega
    rw [if_pos h, if_neg h']; rfl
  have h' : 4 ≤ b.length := by omega
  rw [if_neg h, if_pos h']
  rcases decodeUtf8 (b.take 4) with _ | p
  · rfl
  · simp only [decoded]
    have hr := (Homebrew2015.body_parses p).range b 4 h'
    rcases hd : Homebrew2015.bodySpec p b 4 with e | ⟨d, e⟩
    · rfl
    · simp only [next, if_pos (hr d e hd)]; rfl

/-- With a given prefix. -/
theorem Homebrew2015.of_prefix (b : Bytes) (s : String) (h : b.take 4 = asc s) (h4 : (asc s).length = 4)
    (hs : encUtf8 s.toList = asc s) :
    fromBytes Homebrew2015.read b = (Homebrew2015.bodySpec s.toList b 4).map fun d => { command_prefix := s.toList, command_data := d.1 } := by
  have hl : ¬ b.length < 4 := by
    have := congrArg List.length h
    rw [h4, List.length_take] at this; omega
  rw [Homebrew2015.fromBytes_eq, if_neg hl, h, (decodeUtf8_iff _ _).mpr hs]; rfl

/-- Class of a decoded command. -/
def Homebrew2015.className : Homebrew2015.CommandDataUnion → String
  | .typeRepeaterLoginRequest _ => "TypeRepeaterLoginRequest"
  | .typeMasterRepeaterAck _ => "TypeMasterRepeaterAck"
  | .typeRepeaterLoginResponse _ => "TypeRepeaterLoginResponse"
  | .typeRepeaterConfigurationOrClosing _ => "TypeRepeaterConfigurationOrClosing"
  | .typeDmrData _ => "TypeDmrData"
  | .typeMasterClosing _ => "TypeMasterClosing"
  | .typeRepeaterPong _ => "TypeRepeaterPong"
  | .typeMasterPing _ => "TypeMasterPing"
  | .typeMasterNotAccept _ => "TypeMasterNotAccept"

/-- The documented command prefixes and the classes they select. -/
def Homebrew2015.commands : List (List Char × String) :=
  [("RPTL".toList, "TypeRepeaterLoginRequest"),
   ("MSTA".toList, "TypeMasterRepeaterAck"), ("RPTK".toList, "TypeRepeaterLoginResponse"), ("RPTC".toList, "TypeRepeaterConfigurationOrClosing"), ("DMRD".toList, "TypeDmrData"),
   ("MSTC".toList, "TypeMasterClosing"), ("RPTP".toList, "TypeRepeaterPong"),
   ("MSTP".toList, "TypeMasterPing"),
   ("MSTN".toList, "TypeMasterNotAccept")]

theorem Homebrew2015.bodySpec_class (p : PyStr) (b : Bytes) (q : Nat) (d : Option Homebrew2015.CommandDataUnion) (e : Nat)
    (h : Homebrew2015.bodySpec p b q = .ok (d, e)) : d.map Homebrew2015.className = Homebrew2015.commands.lookup p := by
  unfold Homebrew2015.bodySpec at h
  unfold Homebrew2015.commands
  by_cases h0 : p = "RPTL".toList
  · rw [if_pos h0] at h
    obtain ⟨x, _, rfl⟩ := of_as_ok h
    rw [h0]; rfl
  rw [if_neg h0] at h
  rw [List.lookup_cons, beq_eq_false_iff_ne.mpr h0]
  simp only []
  by_cases h1 : p = "MSTA".toList
  · rw [if_pos h1] at h
    obtain ⟨x, _, rfl⟩ := of_as_ok h
    rw [h1]; rfl
  rw [if_neg h1] at h
  rw [List.lookup_cons, beq_eq_false_iff_ne.mpr h1]
  simp only []
  by_cases h2 : p = "RPTK".toList
  · rw [if_pos h2] at h
    obtain ⟨x, _, rfl⟩ := of_as_ok h
    rw [h2]; rfl
  rw [if_neg h2] at h
  rw [List.lookup_cons, beq_eq_false_iff_ne.mpr h2]
  simp only []
  by_cases h3 : p = "RPTC".toList
  · rw [if_pos h3] at h
    obtain ⟨x, _, rfl⟩ := of_as_ok h
    rw [h3]; rfl
  rw [if_neg h3] at h
  rw [List.lookup_cons, beq_eq_false_iff_ne.mpr h3]
  simp only []
  by_cases h4 : p = "DMRD".toList
  · rw [if_pos h4] at h
    obtain ⟨x, _, rfl⟩ := of_as_ok h
    rw [h4]; rfl
  rw [if_neg h4] at h
  rw [List.lookup_cons, beq_eq_false_iff_ne.mpr h4]
  simp only []
  by_cases h5 : p = "MSTC".toList
  · rw [if_pos h5] at h
    obtain ⟨x, _, rfl⟩ := of_as_ok h
    rw [h5]; rfl
  rw [if_neg h5] at h
  rw [List.lookup_cons, beq_eq_false_iff_ne.mpr h5]
  simp only []
  by_cases h6 : p = "RPTP".toList
  · rw [if_pos h6] at h
    obtain ⟨x, _, rfl⟩ := of_as_ok h
    rw [h6]; rfl
  rw [if_neg h6] at h
  rw [List.lookup_cons, beq_eq_false_iff_ne.mpr h6]
  simp only []
  by_cases h7 : p = "MSTP".toList
  · rw [if_pos h7] at h
    obtain ⟨x, _, rfl⟩ := of_as_ok h
    rw [h7]; rfl
  rw [if_neg h7] at h
  rw [List.lookup_cons, beq_eq_false_iff_ne.mpr h7]
  simp only []
  by_cases h8 : p = "MSTN".toList
  · rw [if_pos h8] at h
    obtain ⟨x, _, rfl⟩ := of_as_ok h
    rw [h8]; rfl
  rw [if_neg h8] at h
  rw [List.lookup_cons, beq_eq_false_iff_ne.mpr h8]
  simp only []
  cases h; rfl

theorem Homebrew2015.bodySpec_unknown (p : PyStr) (b : Bytes) (q : Nat) (h : Homebrew2015.commands.lookup p = none) :
    Homebrew2015.bodySpec p b q = .ok (none, q) := by
  unfold Homebrew2015.bodySpec
  rw [if_neg (by rintro rfl; exact absurd h (by decide) : p ≠ "RPTL".toList), if_neg (by rintro rfl; exact absurd h (by decide) : p ≠ "MSTA".toList), if_neg (by rintro rfl; exact absurd h (by decide) : p ≠ "RPTK".toList), if_neg (by rintro rfl; exact absurd h (by decide) : p ≠ "RPTC".toList), if_neg (by rintro rfl; exact absurd h (by decide) : p ≠ "DMRD".toList), if_neg (by rintro rfl; exact absurd h (by decide) : p ≠ "MSTC".toList), if_neg (by rintro rfl; exact absurd h (by decide) : p ≠ "RPTP".toList), if_neg (by rintro rfl; exact absurd h (by decide) : p ≠ "MSTP".toList), if_neg (by rintro rfl; exact absurd h (by decide) : p ≠ "MSTN".toList)]

/-- C29: fewer than 4 bytes raise EOFError; a prefix that is not valid UTF-8 raises UnicodeDecodeError; an unknown prefix
yields no body; in every decoded packet the prefix is the text of the first 4 bytes and it alone selects the class of the
body. -/
theorem C29_dispatch (b : Bytes) :
    (b.length < 4 → fromBytes Homebrew2015.read b = .error .eof) ∧
    (4 ≤ b.length → (∀ s, encUtf8 s ≠ b.take 4) → fromBytes Homebrew2015.read b = .error .unicode) ∧
    (∀ s, 4 ≤ b.length → encUtf8 s = b.take 4 → Homebrew2015.commands.lookup s = none →
      fromBytes Homebrew2015.read b = .ok { command_prefix := s, command_data := none }) ∧
    (∀ x, fromBytes Homebrew2015.read b = .ok x → 4 ≤ b.length ∧ encUtf8 x.command_prefix = b.take 4 ∧
      x.command_data.map Homebrew2015.className = Homebrew2015.commands.lookup x.command_prefix) := by
  rw [Homebrew2015.fromBytes_eq]
  refine ⟨fun h => if_pos h, fun h hs => ?_, fun s h hs hu => ?_, fun x h => ?_⟩
  · have h' : ¬ b.length < 4 := by omega
    rw [if_neg h']
    rcases hd : decodeUtf8 (b.take 4) with _ | s
    · rfl
    · exact absurd ((decodeUtf8_iff _ _).mp hd) (hs s)
  · have h' : ¬ b.length < 4 := by omega
    rw [if_neg h', (decodeUtf8_iff _ _).mpr hs, decoded, Homebrew2015.bodySpec_unknown s b 4 hu]; rfl
  · by_cases h' : b.length < 4
    · rw [if_pos h'] at h; cases h
    rw [if_neg h'] at h
    obtain ⟨s, hs, h⟩ := Hytera.of_decoded_ok h
    rcases hd : Homebrew2015.bodySpec s b 4 with e | ⟨d, e⟩
    · rw [hd] at h; cases h
    · rw [hd] at h; cases h
      exact ⟨by omega, (decodeUtf8_iff _ _).mp hs, Homebrew2015.bodySpec_class _ _ _ _ _ hd⟩

/-- C29: `RPTL`, login request. -/
theorem C29_login (b : Bytes) (h : b.take 4 = asc "RPTL") :
    fromBytes Homebrew2015.read b = if b.length < 8 then .error .eof else
      .ok { command_prefix := "RPTL".toList, command_data := some (.typeRepeaterLoginRequest { repeater_id := u32be b 4 }) } := by
  rw [Homebrew2015.of_prefix b "RPTL" h rfl (by decide)]
  rw [show Homebrew2015.bodySpec "RPTL".toList b 4 = (whole 4 Homebrew2015.TypeRepeaterLoginRequest.spec b 4).as fun x => some (.typeRepeaterLoginRequest x) from rfl, map_as, whole]
  by_cases h8 : b.length < 8
  · have h8' : ¬ (4 + 4 ≤ b.length) := by omega
    rw [if_pos h8, if_neg h8']; rfl
  · have h8' : 4 + 4 ≤ b.length := by omega
    rw [if_neg h8, if_pos h8']; rfl

example : fromBytes Homebrew2015.read (asc "RPTL" ++ [0, 35, 0, 1]) = .ok ⟨"RPTL".toList, some (.typeRepeaterLoginRequest ⟨0x230001⟩)⟩ := by
  rw [C29_login _ rfl]; decide

/-- C29: `RPTK`, login response: repeater id and 32 bytes of hash. -/
theorem C29_login_response (b : Bytes) (h : b.take 4 = asc "RPTK") :
    fromBytes Homebrew2015.read b = if b.length < 40 then .error .eof else
      .ok { command_prefix := "RPTK".toList
            command_data := some (.typeRepeaterLoginResponse { repeater_id := u32be b 4, sha256 := slice b 8 32 }) } := by
  rw [Homebrew2015.of_prefix b "RPTK" h rfl (by decide)]
  rw [show Homebrew2015.bodySpec "RPTK".toList b 4 = (whole 36 Homebrew2015.TypeRepeaterLoginResponse.spec b 4).as fun x => some (.typeRepeaterLoginResponse x) from rfl, map_as, whole]
  by_cases h8 : b.length < 40
  · have h8' : ¬ (4 + 36 ≤ b.length) := by omega
    rw [if_pos h8, if_neg h8']; rfl
  · have h8' : 4 + 36 ≤ b.length := by omega
    rw [if_neg h8, if_pos h8']; rfl

example : fromBytes Homebrew2015.read (asc "RPTK" ++ [0, 35, 0, 1] ++ List.replicate 32 9) = .ok ⟨"RPTK".toList, some (.typeRepeaterLoginResponse ⟨0x230001, List.replicate 32 9⟩)⟩ := by
  rw [C29_login_response _ rfl]; decide

/-- C29: `MSTCL` and a 32 bit number. -/
theorem C29_master_closing (b : Bytes) (h : b.take 4 = asc "MSTC") :
    fromBytes Homebrew2015.read b = fixedThenNumber b (asc "L") "/types/type_master_closing/seq/0" fun n =>
      { command_prefix := "MSTC".toList, command_data := some (.typeMasterClosing { magic := asc "L", repeater_id := n }) } := by
  rw [Homebrew2015.of_prefix b "MSTC" h rfl (by decide)]
  rw [show Homebrew2015.bodySpec "MSTC".toList b 4 = (Homebrew2015.TypeMasterClosing.spec b 4).as fun x => some (.typeMasterClosing x) from rfl, map_as]
  exact magicThenId_eq [0x4c] _ _ b _ _ fun _ _ => rfl

example : fromBytes Homebrew2015.read (asc "MSTCL" ++ [0, 35, 0, 1]) = .ok ⟨"MSTC".toList, some (.typeMasterClosing ⟨asc "L", 0x230001⟩)⟩ := by
  rw [C29_master_closing _ rfl]; decide

/-- C29: `MSTNAK` and a 32 bit number. -/
theorem C29_master_not_accept (b : Bytes) (h : b.take 4 = asc "MSTN") :
    fromBytes Homebrew2015.read b = fixedThenNumber b (asc "AK") "/types/type_master_not_accept/seq/0" fun n =>
      { command_prefix := "MSTN".toList, command_data := some (.typeMasterNotAccept { magic := asc "AK", repeater_id := n }) } := by
  rw [Homebrew2015.of_prefix b "MSTN" h rfl (by decide)]
  rw [show Homebrew2015.bodySpec "MSTN".toList b 4 = (Homebrew2015.TypeMasterNotAccept.spec b 4).as fun x => some (.typeMasterNotAccept x) from rfl, map_as]
  exact magicThenId_eq [0x41, 0x4b] _ _ b _ _ fun _ _ => rfl

example : fromBytes Homebrew2015.read (asc "MSTNAK" ++ [0, 35, 0, 1]) = .ok ⟨"MSTN".toList, some (.typeMasterNotAccept ⟨asc "AK", 0x230001⟩)⟩ := by
  rw [C29_master_not_accept _ rfl]; decide

/-- C29: `RPTPONG` and a 32 bit number. -/
theorem C29_repeater_pong (b : Bytes) (h : b.take 4 = asc "RPTP") :
    fromBytes Homebrew2015.read b = fixedThenNumber b (asc "ONG") "/types/type_repeater_pong/seq/0" fun n =>
      { command_prefix := "RPTP".toList, command_data := some (.typeRepeaterPong { magic := asc "ONG", repeater_id := n }) } := by
  rw [Homebrew2015.of_prefix b "RPTP" h rfl (by decide)]
  rw [show Homebrew2015.bodySpec "RPTP".toList b 4 = (Homebrew2015.TypeRepeaterPong.spec b 4).as fun x => some (.typeRepeaterPong x) from rfl, map_as]
  exact magicThenId_eq [0x4f, 0x4e, 0x47] _ _ b _ _ fun _ _ => rfl

example : fromBytes Homebrew2015.read (asc "RPTPONG" ++ [0, 35, 0, 1]) = .ok ⟨"RPTP".toList, some (.typeRepeaterPong ⟨asc "ONG", 0x230001⟩)⟩ := by
  rw [C29_repeater_pong _ rfl]; decide

/-- C29: `MSTPING` and a 32 bit number. -/
theorem C29_master_ping (b : Bytes) (h : b.take 4 = asc "MSTP") :
    fromBytes Homebrew2015.read b = fixedThenNumber b (asc "ING") "/types/type_master_ping/seq/0" fun n =>
      { command_prefix := "MSTP".toList, command_data := some (.typeMasterPing { magic := asc "ING", repeater_id := n }) } := by
  rw [Homebrew2015.of_prefix b "MSTP" h rfl (by decide)]
  rw [show Homebrew2015.bodySpec "MSTP".toList b 4 = (Homebrew2015.TypeMasterPing.spec b 4).as fun x => some (.typeMasterPing x) from rfl, map_as]
  exact magicThenId_eq [0x49, 0x4e, 0x47] _ _ b _ _ fun _ _ => rfl

example : fromBytes Homebrew2015.read (asc "MSTPING" ++ [0, 35, 0, 1]) = .ok ⟨"MSTP".toList, some (.typeMasterPing ⟨asc "ING", 0x230001⟩)⟩ := by
  rw [C29_master_ping _ rfl]; decide

/-- C29: `MSTACK`, a repeater id and, if anything follows, a 32 bit random number that must be complete. -/
theorem C29_master_repeater_ack (b : Bytes) (h : b.take 4 = asc "MSTA") :
    fromBytes Homebrew2015.read b =
      let packet (r : Option Nat) : Homebrew2015 :=
        { command_prefix := "MSTA".toList
          command_data := some (.typeMasterRepeaterAck { magictype_master_repeater_ack := asc "CK", repeater_id := u32be b 6, random_number := r }) }
      if b.length < 6 then .error .eof
      else if slice b 4 2 ≠ asc "CK" then .error (.validation "/types/type_master_repeater_ack/seq/0")
      else if b.length < 10 then .error .eof
      else if b.length = 10 then .ok (packet none)
      else if b.length < 14 then .error .eof
      else .ok (packet (some (u32be b 10))) := by
  rw [Homebrew2015.of_prefix b "MSTA" h rfl (by decide)]
  rw [show Homebrew2015.bodySpec "MSTA".toList b 4 = (Homebrew2015.TypeMasterRepeaterAck.spec b 4).as fun x => some (.typeMasterRepeaterAck x) from rfl, map_as]
  unfold Homebrew2015.TypeMasterRepeaterAck.spec fixedAt upTo optPart whole
  simp only [List.length_cons, List.length_nil, Nat.zero_add, Nat.reduceAdd, show asc "CK" = [0x43, 0x4b] from rfl]
  by_cases h1 : b.length < 6
  · have h1' : ¬ (6 ≤ b.length) := by omega
    rw [if_pos h1, if_neg h1']; rfl
  have h1' : 6 ≤ b.length := by omega
  rw [if_neg h1, if_pos h1']
  by_cases h2 : slice b 4 2 = [0x43, 0x4b]
  · have h2' : ¬ (slice b 4 2 ≠ [0x43, 0x4b]) := by simp [h2]
    rw [if_pos h2, if_neg h2']
    by_cases h3 : b.length < 10
    · have h3' : ¬ (10 ≤ b.length) := by omega
      rw [if_pos h3, if_neg h3']; rfl
    have h3' : 10 ≤ b.length := by omega
    rw [if_neg h3, if_pos h3']
    by_cases h4 : b.length = 10
    · have h4' : ¬ (10 < b.length) := by omega
      rw [if_pos h4, if_neg h4', next, if_pos h3']; rfl
    have h4' : 10 < b.length := by omega
    rw [if_neg h4, if_pos h4']
    by_cases h5 : b.length < 14
    · have h5' : ¬ (14 ≤ b.length) := by omega
      rw [if_pos h5, if_neg h5']; rfl
    have h5' : 14 ≤ b.length := by omega
    rw [if_neg h5, if_pos h5', Parsed.as, next, if_pos h5']; rfl
  · rw [if_neg h2, if_pos h2]; rfl

/-- C29: an `RPTC` packet decoded as a configuration: repeater id and ASCII columns at these offsets, and all the rest. -/
theorem C29_configuration (b : Bytes) (x : Homebrew2015.TypeRepeaterConfiguration) (h : b.take 4 = asc "RPTC")
    (hx : fromBytes Homebrew2015.read b = .ok ⟨"RPTC".toList, some (.typeRepeaterConfigurationOrClosing ⟨.typeRepeaterConfiguration x⟩)⟩) :
    302 ≤ b.length ∧ x.repeater_id = u32be b 4 ∧
    encAscii x.call_sign = some (slice b 8 8) ∧
    encAscii x.rx_freq = some (slice b 16 9) ∧
    encAscii x.tx_freq = some (slice b 25 9) ∧
    encAscii x.tx_power = some (slice b 34 2) ∧
    encAscii x.color_code = some (slice b 36 2) ∧
    encAscii x.latitude = some (slice b 38 8) ∧
    encAscii x.longitude = some (slice b 46 9) ∧
    encAscii x.antenna_height_above_ground = some (slice b 55 3) ∧
    encAscii x.location = some (slice b 58 20) ∧
    encAscii x.description = some (slice b 78 20) ∧
    encAscii x.url = some (slice b 98 124) ∧
    encAscii x.software_id = some (slice b 222 40) ∧
    encAscii x.package_id = some (slice b 262 40) ∧
    encAscii x.unparsed_data = some (b.drop 302) := by
  rw [Homebrew2015.of_prefix b "RPTC" h rfl (by decide),
    show Homebrew2015.bodySpec "RPTC".toList b 4 = (Homebrew2015.TypeRepeaterConfigurationOrClosing.spec b 4).as fun x => some (.typeRepeaterConfigurationOrClosing x) from rfl, map_as] at hx
  rcases hd : Homebrew2015.TypeRepeaterConfigurationOrClosing.spec b 4 with e | ⟨d, e⟩
  · rw [hd] at hx; cases hx
  rw [hd] at hx; cases hx
  unfold Homebrew2015.TypeRepeaterConfigurationOrClosing.spec at hd
  obtain ⟨_, hd⟩ := of_upTo_ok hd
  split at hd
  · cases hd
  split at hd
  · obtain ⟨_, _, hd⟩ := of_as_ok hd; cases hd
  obtain ⟨x', hd, hx'⟩ := of_as_ok hd
  cases hx'
  unfold Homebrew2015.TypeRepeaterConfiguration.spec at hd
  obtain ⟨_, hd⟩ := of_upTo_ok hd
  obtain ⟨l0, s0, t0, hd⟩ := of_textAt_ok hd
  obtain ⟨l1, s1, t1, hd⟩ := of_textAt_ok hd
  obtain ⟨l2, s2, t2, hd⟩ := of_textAt_ok hd
  obtain ⟨l3, s3, t3, hd⟩ := of_textAt_ok hd
  obtain ⟨l4, s4, t4, hd⟩ := of_textAt_ok hd
  obtain ⟨l5, s5, t5, hd⟩ := of_textAt_ok hd
  obtain ⟨l6, s6, t6, hd⟩ := of_textAt_ok hd
  obtain ⟨l7, s7, t7, hd⟩ := of_textAt_ok hd
  obtain ⟨l8, s8, t8, hd⟩ := of_textAt_ok hd
  obtain ⟨l9, s9, t9, hd⟩ := of_textAt_ok hd
  obtain ⟨l10, s10, t10, hd⟩ := of_textAt_ok hd
  obtain ⟨l11, s11, t11, hd⟩ := of_textAt_ok hd
  obtain ⟨l12, s12, t12, hd⟩ := of_textAt_ok hd
  obtain ⟨r, t, hd⟩ := Hytera.of_decoded_ok hd
  cases hd
  refine ⟨by omega, rfl, (decodeAscii_iff _ _).mp t0, (decodeAscii_iff _ _).mp t1, (decodeAscii_iff _ _).mp t2, (decodeAscii_iff _ _).mp t3, (decodeAscii_iff _ _).mp t4, (decodeAscii_iff _ _).mp t5, (decodeAscii_iff _ _).mp t6, (decodeAscii_iff _ _).mp t7, (decodeAscii_iff _ _).mp t8, (decodeAscii_iff _ _).mp t9, (decodeAscii_iff _ _).mp t10, (decodeAscii_iff _ _).mp t11, (decodeAscii_iff _ _).mp t12, (decodeAscii_iff _ _).mp t⟩

/-- C29: how an `RPTC` packet whose fifth byte is ASCII but not `L` fails: cut short it raises EOFError or, if some
complete column is not ASCII, UnicodeDecodeError; long enough it raises UnicodeDecodeError exactly if some byte after the
repeater id is not ASCII. -/
theorem C29_configuration_accept (b : Bytes) (h : b.take 4 = asc "RPTC") (h5 : u8 b 4 < 128) (hL : u8 b 4 ≠ 0x4C) :
    (b.length < 302 → fromBytes Homebrew2015.read b = .error .eof ∨ fromBytes Homebrew2015.read b = .error .unicode) ∧
    (302 ≤ b.length → (∀ i, 8 ≤ i → i < b.length → u8 b i < 128) →
      ∃ x, fromBytes Homebrew2015.read b = .ok ⟨"RPTC".toList, some (.typeRepeaterConfigurationOrClosing ⟨.typeRepeaterConfiguration x⟩)⟩) ∧
    (302 ≤ b.length → (∃ i, 8 ≤ i ∧ i < b.length ∧ 128 ≤ u8 b i) → fromBytes Homebrew2015.read b = .error .unicode) := by
  have hv : fromBytes Homebrew2015.read b = (Homebrew2015.TypeRepeaterConfigurationOrClosing.spec b 4).map fun d =>
      { command_prefix := "RPTC".toList, command_data := some (.typeRepeaterConfigurationOrClosing d.1) } := by
    rw [Homebrew2015.of_prefix b "RPTC" h rfl (by decide),
      show Homebrew2015.bodySpec "RPTC".toList b 4 = (Homebrew2015.TypeRepeaterConfigurationOrClosing.spec b 4).as fun x => some (.typeRepeaterConfigurationOrClosing x) from rfl, map_as]
  have hle : ¬ 128 ≤ u8 b 4 := by omega
  have hsp : Homebrew2015.TypeRepeaterConfigurationOrClosing.spec b 4 = upTo b 5 ((Homebrew2015.TypeRepeaterConfiguration.spec b 4).as fun x => ⟨.typeRepeaterConfiguration x⟩) := by
    unfold Homebrew2015.TypeRepeaterConfigurationOrClosing.spec
    rw [if_neg hle, if_neg hL]
  refine ⟨fun hs => ?_, fun hl ha => ?_, fun hl ⟨i, hi8, hil, hi⟩ => ?_⟩
  · have hf : Fails [.eof, .unicode] (Homebrew2015.TypeRepeaterConfiguration.spec b 4) := by
      unfold Homebrew2015.TypeRepeaterConfiguration.spec
      refine .upTo (by simp) ?_
      refine .textAt (by simp) (by simp) fun _ _ => ?_
      refine .textAt (by simp) (by simp) fun _ _ => ?_
      refine .textAt (by simp) (by simp) fun _ _ => ?_
      refine .textAt (by simp) (by simp) fun _ _ => ?_
      refine .textAt (by simp) (by simp) fun _ _ => ?_
      refine .textAt (by simp) (by simp) fun _ _ => ?_
      refine .textAt (by simp) (by simp) fun _ _ => ?_
      refine .textAt (by simp) (by simp) fun _ _ => ?_
      refine .textAt (by simp) (by simp) fun _ _ => ?_
      refine .textAt (by simp) (by simp) fun _ _ => ?_
      refine .textAt (by simp) (by simp) fun _ _ => ?_
      refine .textAt (by simp) (by simp) fun _ _ => ?_
      exact .textAt (by simp) (by simp) fun _ _ => by omega
    have hf' : Fails [.eof, .unicode] (Homebrew2015.TypeRepeaterConfigurationOrClosing.spec b 4) := by
      rw [hsp]
      refine .upTo (by simp) ?_
      obtain ⟨e, he, hf⟩ := hf
      exact ⟨e, he, by rw [hf]; rfl⟩
    obtain ⟨e, he, hf'⟩ := hf'
    rw [hv, hf']
    simp only [List.mem_cons, List.not_mem_nil, or_false] at he
    rcases he with rfl | rfl
    · exact .inl rfl
    · exact .inr rfl
  · rw [hv, hsp, upTo, if_pos (by omega)]
    unfold Homebrew2015.TypeRepeaterConfiguration.spec
    rw [upTo, if_pos (by omega)]
    obtain ⟨s0, e0⟩ := textAt_ascii b 8 8 (by omega) (fun i h1 h2 => ha i (by omega) (by omega))
    rw [show (4 + 4 = 8) from rfl, e0]
    obtain ⟨s1, e1⟩ := textAt_ascii b 16 9 (by omega) (fun i h1 h2 => ha i (by omega) (by omega))
    rw [show (4 + 12 = 16) from rfl, e1]
    obtain ⟨s2, e2⟩ := textAt_ascii b 25 9 (by omega) (fun i h1 h2 => ha i (by omega) (by omega))
    rw [show (4 + 21 = 25) from rfl, e2]
    obtain ⟨s3, e3⟩ := textAt_ascii b 34 2 (by omega) (fun i h1 h2 => ha i (by omega) (by omega))
    rw [show (4 + 30 = 34) from rfl, e3]
    obtain ⟨s4, e4⟩ := textAt_ascii b 36 2 (by omega) (fun i h1 h2 => ha i (by omega) (by omega))
    rw [show (4 + 32 = 36) from rfl, e4]
    obtain ⟨s5, e5⟩ := textAt_ascii b 38 8 (by omega) (fun i h1 h2 => ha i (by omega) (by omega))
    rw [show (4 + 34 = 38) from rfl, e5]
    obtain ⟨s6, e6⟩ := textAt_ascii b 46 9 (by omega) (fun i h1 h2 => ha i (by omega) (by omega))
    rw [show (4 + 42 = 46) from rfl, e6]
    obtain ⟨s7, e7⟩ := textAt_ascii b 55 3 (by omega) (fun i h1 h2 => ha i (by omega) (by omega))
    rw [show (4 + 51 = 55) from rfl, e7]
    obtain ⟨s8, e8⟩ := textAt_ascii b 58 20 (by omega) (fun i h1 h2 => ha i (by omega) (by omega))
    rw [show (4 + 54 = 58) from rfl, e8]
    obtain ⟨s9, e9⟩ := textAt_ascii b 78 20 (by omega) (fun i h1 h2 => ha i (by omega) (by omega))
    rw [show (4 + 74 = 78) from rfl, e9]
    obtain ⟨s10, e10⟩ := textAt_ascii b 98 124 (by omega) (fun i h1 h2 => ha i (by omega) (by omega))
    rw [show (4 + 94 = 98) from rfl, e10]
    obtain ⟨s11, e11⟩ := textAt_ascii b 222 40 (by omega) (fun i h1 h2 => ha i (by omega) (by omega))
    rw [show (4 + 218 = 222) from rfl, e11]
    obtain ⟨s12, e12⟩ := textAt_ascii b 262 40 (by omega) (fun i h1 h2 => ha i (by omega) (by omega))
    rw [show (4 + 258 = 262) from rfl, e12]
    obtain ⟨s, hs⟩ := decodeAscii_drop_ok b (4 + 298) (by intro j h1 h2; exact ha j (by omega) h2)
    rw [hs]
    exact ⟨_, rfl⟩
  · rcases hr : fromBytes Homebrew2015.read b with e | y
    · rw [hv, hsp, upTo, if_pos (by omega)] at hr
      have hf : ∀ e, Homebrew2015.TypeRepeaterConfiguration.spec b 4 = .error e → e = .unicode := by
        unfold Homebrew2015.TypeRepeaterConfiguration.spec
        rw [upTo, if_pos (by omega)]
        refine textAt_unicode (by omega) fun _ => ?_
        refine textAt_unicode (by omega) fun _ => ?_
        refine textAt_unicode (by omega) fun _ => ?_
        refine textAt_unicode (by omega) fun _ => ?_
        refine textAt_unicode (by omega) fun _ => ?_
        refine textAt_unicode (by omega) fun _ => ?_
        refine textAt_unicode (by omega) fun _ => ?_
        refine textAt_unicode (by omega) fun _ => ?_
        refine textAt_unicode (by omega) fun _ => ?_
        refine textAt_unicode (by omega) fun _ => ?_
        refine textAt_unicode (by omega) fun _ => ?_
        refine textAt_unicode (by omega) fun _ => ?_
        refine textAt_unicode (by omega) fun _ => ?_
        intro e
        rcases decodeAscii (b.drop (4 + 298)) with _ | s
        · intro h; cases h; rfl
        · intro h; cases h
      rcases hd : Homebrew2015.TypeRepeaterConfiguration.spec b 4 with e' | ⟨d, e'⟩
      · rw [hd] at hr
        rw [hf e' hd] at hr
        cases hr; rfl
      · rw [hd] at hr; cases hr
    · exfalso
      have hy : ∃ x, y = ⟨"RPTC".toList, some (.typeRepeaterConfigurationOrClosing ⟨.typeRepeaterConfiguration x⟩)⟩ := by
        rw [hv, hsp, upTo, if_pos (by omega)] at hr
        rcases hd : Homebrew2015.TypeRepeaterConfiguration.spec b 4 with e' | ⟨d, e'⟩
        · rw [hd] at hr; cases hr
        · rw [hd] at hr; cases hr; exact ⟨d, rfl⟩
      obtain ⟨x, rfl⟩ := hy
      have hc := C29_configuration b x h hr
      obtain ⟨_, _, t0, t1, t2, t3, t4, t5, t6, t7, t8, t9, t10, t11, t12, t⟩ := hc
      by_cases c0 : i < 16
      · have := encAscii_lt t0 (by omega) i (by omega) c0
        omega
      by_cases c1 : i < 25
      · have := encAscii_lt t1 (by omega) i (by omega) c1
        omega
      by_cases c2 : i < 34
      · have := encAscii_lt t2 (by omega) i (by omega) c2
        omega
      by_cases c3 : i < 36
      · have := encAscii_lt t3 (by omega) i (by omega) c3
        omega
      by_cases c4 : i < 38
      · have := encAscii_lt t4 (by omega) i (by omega) c4
        omega
      by_cases c5 : i < 46
      · have := encAscii_lt t5 (by omega) i (by omega) c5
        omega
      by_cases c6 : i < 55
      · have := encAscii_lt t6 (by omega) i (by omega) c6
        omega
      by_cases c7 : i < 58
      · have := encAscii_lt t7 (by omega) i (by omega) c7
        omega
      by_cases c8 : i < 78
      · have := encAscii_lt t8 (by omega) i (by omega) c8
        omega
      by_cases c9 : i < 98
      · have := encAscii_lt t9 (by omega) i (by omega) c9
        omega
      by_cases c10 : i < 222
      · have := encAscii_lt t10 (by omega) i (by omega) c10
        omega
      by_cases c11 : i < 262
      · have := encAscii_lt t11 (by omega) i (by omega) c11
        omega
      by_cases c12 : i < 302
      · have := encAscii_lt t12 (by omega) i (by omega) c12
        omega
      have := encAscii_drop_lt t i (by omega) hil
      omega

/-- A configuration of 302 letters after the number, and the one before with a letter that is not ASCII. -/
example : ∃ x, fromBytes Homebrew2015.read (asc "RPTC" ++ [0, 35, 0, 1] ++ List.replicate 300 0x41) =
      .ok ⟨"RPTC".toList, some (.typeRepeaterConfigurationOrClosing ⟨.typeRepeaterConfiguration x⟩)⟩ ∧
    encAscii x.url = some (List.replicate 124 0x41) := by
  obtain ⟨x, hx⟩ := (C29_configuration_accept (asc "RPTC" ++ [0, 35, 0, 1] ++ List.replicate 300 0x41) rfl (by decide) (by decide)).2.1
    (by decide +kernel) (fun i h1 h2 => by
      have : (asc "RPTC" ++ [0, 35, 0, 1] ++ List.replicate 300 0x41).getD i 0 = 0x41 := by
        rw [List.getD_eq_getElem?_getD, List.getElem?_append_right (show 8 ≤ i from h1), List.getElem?_replicate,
          if_pos (by simp only [List.length_append, List.length_replicate] at h2 ⊢; have : (asc "RPTC").length = 4 := rfl; simp only [this, List.length_cons, List.length_nil] at h2 ⊢; omega)]; rfl
      rw [u8, this]; decide)
  exact ⟨x, hx, (C29_configuration _ x rfl hx).2.2.2.2.2.2.2.2.2.2.2.2.1.trans (by rfl)⟩
example := (C29_configuration_accept (asc "RPTC" ++ [0, 35, 0, 1] ++ List.replicate 299 0x41 ++ [0x80]) rfl (by decide) (by decide)).2.2
  (by decide +kernel) ⟨307, by decide, by decide +kernel, by decide +kernel⟩

/-! ### Mmdvm2020 -/

theorem Mmdvm2020.fromBytes_eq (b : Bytes) :
    fromBytes Mmdvm2020.read b =
      if b.length < 4 then .error .eof
      else decoded (decodeAscii (b.take 4)) fun p => (Mmdvm2020.bodySpec p b 4).map fun d => { command_prefix := p, command_data := d.1 } := by
  rw [Mmdvm2020.parses.fromBytes, Mmdvm2020.spec, textAt, Nat.zero_add, take_four]
  by_cases h : b.length < 4
  · have h' : ¬ (4 ≤ b.length) := by omega
    rw [if_pos h, if_neg h']; rfl
  have h' : 4 ≤ b.length := by omega
  rw [if_neg h, if_pos h']
  rcases decodeAscii (b.take 4) with _ | p
  · rfl
  · simp only [decoded]
    have hr := (Mmdvm2020.body_parses p).range b 4 h'
    rcases hd : Mmdvm2020.bodySpec p b 4 with e | ⟨d, e⟩
    · rfl
    · simp only [next, if_pos (hr d e hd)]; rfl

/-- With a given prefix. -/
theorem Mmdvm2020.of_prefix (b : Bytes) (s : String) (h : b.take 4 = asc s) (h4 : (asc s).length = 4)
    (hs : encAscii s.toList = some (asc s)) :
    fromBytes Mmdvm2020.read b = (Mmdvm2020.bodySpec s.toList b 4).map fun d => { command_prefix := s.toList, command_data := d.1 } := by
  have hl : ¬ b.length < 4 := by
    have := congrArg List.length h
    rw [h4, List.length_take] at this; omega
  rw [Mmdvm2020.fromBytes_eq, if_neg hl, h, (decodeAscii_iff _ _).mpr hs]; rfl

/-- Class of a decoded command. -/
def Mmdvm2020.className : Mmdvm2020.CommandDataUnion → String
  | .typeRepeaterLoginRequest _ => "TypeRepeaterLoginRequest"
  | .typeRadioPosition _ => "TypeRadioPosition"
  | .typeMasterRepeaterAck _ => "TypeMasterRepeaterAck"
  | .typeRepeaterLoginResponse _ => "TypeRepeaterLoginResponse"
  | .typeRepeaterConfigurationOrClosing _ => "TypeRepeaterConfigurationOrClosing"
  | .typeDmrData _ => "TypeDmrData"
  | .typeMasterClosing _ => "TypeMasterClosing"
  | .typeRepeaterPing _ => "TypeRepeaterPing"
  | .typeRepeaterOptions _ => "TypeRepeaterOptions"
  | .typeMasterPong _ => "TypeMasterPong"
  | .typeRepeaterBeacon _ => "TypeRepeaterBeacon"
  | .typeMasterNotAccept _ => "TypeMasterNotAccept"
  | .typeTalkerAlias _ => "TypeTalkerAlias"

/-- The documented command prefixes and the classes they select. -/
def Mmdvm2020.commands : List (List Char × String) :=
  [("RPTL".toList, "TypeRepeaterLoginRequest"), ("DMRG".toList, "TypeRadioPosition"), ("RPTA".toList, "TypeMasterRepeaterAck"), ("RPTK".toList, "TypeRepeaterLoginResponse"), ("RPTC".toList, "TypeRepeaterConfigurationOrClosing"), ("DMRD".toList, "TypeDmrData"),
   ("MSTC".toList, "TypeMasterClosing"), ("RPTP".toList, "TypeRepeaterPing"), ("RPTO".toList, "TypeRepeaterOptions"),
   ("MSTP".toList, "TypeMasterPong"), ("RPTS".toList, "TypeRepeaterBeacon"),
   ("MSTN".toList, "TypeMasterNotAccept"), ("DMRA".toList, "TypeTalkerAlias")]

theorem Mmdvm2020.bodySpec_class (p : PyStr) (b : Bytes) (q : Nat) (d : Option Mmdvm2020.CommandDataUnion) (e : Nat)
    (h : Mmdvm2020.bodySpec p b q = .ok (d, e)) : d.map Mmdvm2020.className = Mmdvm2020.commands.lookup p := by
  unfold Mmdvm2020.bodySpec at h
  unfold Mmdvm2020.commands
  by_cases h0 : p = "RPTL".toList
  · rw [if_pos h0] at h
    obtain ⟨x, _, rfl⟩ := of_as_ok h
    rw [h0]; rfl
  rw [if_neg h0] at h
  rw [List.lookup_cons, beq_eq_false_iff_ne.mpr h0]
  simp only []
  by_cases h1 : p = "DMRG".toList
  · rw [if_pos h1] at h
    obtain ⟨x, _, rfl⟩ := of_as_ok h
    rw [h1]; rfl
  rw [if_neg h1] at h
  rw [List.lookup_cons, beq_eq_false_iff_ne.mpr h1]
  simp only []
  by_cases h2 : p = "RPTA".toList
  · rw [if_pos h2] at h
    obtain ⟨x, _, rfl⟩ := of_as_ok h
    rw [h2]; rfl
  rw [if_neg h2] at h
  rw [List.lookup_cons, beq_eq_false_iff_ne.mpr h2]
  simp only []
  by_cases h3 : p = "RPTK".toList
  · rw [if_pos h3] at h
    obtain ⟨x, _, rfl⟩ := of_as_ok h
    rw [h3]; rfl
  rw [if_neg h3] at h
  rw [List.lookup_cons, beq_eq_false_iff_ne.mpr h3]
  simp only []
  by_cases h4 : p = "RPTC".toList
  · rw [if_pos h4] at h
    obtain ⟨x, _, rfl⟩ := of_as_ok h
    rw [h4]; rfl
  rw [if_neg h4] at h
  rw [List.lookup_cons, beq_eq_false_iff_ne.mpr h4]
  simp only []
  by_cases h5 : p = "DMRD".toList
  · rw [if_pos h5] at h
    obtain ⟨x, _, rfl⟩ := of_as_ok h
    rw [h5]; rfl
  rw [if_neg h5] at h
  rw [List.lookup_cons, beq_eq_false_iff_ne.mpr h5]
  simp only []
  by_cases h6 : p = "MSTC".toList
  · rw [if_pos h6] at h
    obtain ⟨x, _, rfl⟩ := of_as_ok h
    rw [h6]; rfl
  rw [if_neg h6] at h
  rw [List.lookup_cons, beq_eq_false_iff_ne.mpr h6]
  simp only []
  by_cases h7 : p = "RPTP".toList
  · rw [if_pos h7] at h
    obtain ⟨x, _, rfl⟩ := of_as_ok h
    rw [h7]; rfl
  rw [if_neg h7] at h
  rw [List.lookup_cons, beq_eq_false_iff_ne.mpr h7]
  simp only []
  by_cases h8 : p = "RPTO".toList
  · rw [if_pos h8] at h
    obtain ⟨x, _, rfl⟩ := of_as_ok h
    rw [h8]; rfl
  rw [if_neg h8] at h
  rw [List.lookup_cons, beq_eq_false_iff_ne.mpr h8]
  simp only []
  by_cases h9 : p = "MSTP".toList
  · rw [if_pos h9] at h
    obtain ⟨x, _, rfl⟩ := of_as_ok h
    rw [h9]; rfl
  rw [if_neg h9] at h
  rw [List.lookup_cons, beq_eq_false_iff_ne.mpr h9]
  simp only []
  by_cases h10 : p = "RPTS".toList
  · rw [if_pos h10] at h
    obtain ⟨x, _, rfl⟩ := of_as_ok h
    rw [h10]; rfl
  rw [if_neg h10] at h
  rw [List.lookup_cons, beq_eq_false_iff_ne.mpr h10]
  simp only []
  by_cases h11 : p = "MSTN".toList
  · rw [if_pos h11] at h
    obtain ⟨x, _, rfl⟩ := of_as_ok h
    rw [h11]; rfl
  rw [if_neg h11] at h
  rw [List.lookup_cons, beq_eq_false_iff_ne.mpr h11]
  simp only []
  by_cases h12 : p = "DMRA".toList
  · rw [if_pos h12] at h
    obtain ⟨x, _, rfl⟩ := of_as_ok h
    rw [h12]; rfl
  rw [if_neg h12] at h
  rw [List.lookup_cons, beq_eq_false_iff_ne.mpr h12]
  simp only []
  cases h; rfl

theorem Mmdvm2020.bodySpec_unknown (p : PyStr) (b : Bytes) (q : Nat) (h : Mmdvm2020.commands.lookup p = none) :
    Mmdvm2020.bodySpec p b q = .ok (none, q) := by
  unfold Mmdvm2020.bodySpec
  rw [if_neg (by rintro rfl; exact absurd h (by decide) : p ≠ "RPTL".toList), if_neg (by rintro rfl; exact absurd h (by decide) : p ≠ "DMRG".toList), if_neg (by rintro rfl; exact absurd h (by decide) : p ≠ "RPTA".toList), if_neg (by rintro rfl; exact absurd h (by decide) : p ≠ "RPTK".toList), if_neg (by rintro rfl; exact absurd h (by decide) : p ≠ "RPTC".toList), if_neg (by rintro rfl; exact absurd h (by decide) : p ≠ "DMRD".toList), if_neg (by rintro rfl; exact absurd h (by decide) : p ≠ "MSTC".toList), if_neg (by rintro rfl; exact absurd h (by decide) : p ≠ "RPTP".toList), if_neg (by rintro rfl; exact absurd h (by decide) : p ≠ "RPTO".toList), if_neg (by rintro rfl; exact absurd h (by decide) : p ≠ "MSTP".toList), if_neg (by rintro rfl; exact absurd h (by decide) : p ≠ "RPTS".toList), if_neg (by rintro rfl; exact absurd h (by decide) : p ≠ "MSTN".toList), if_neg (by rintro rfl; exact absurd h (by decide) : p ≠ "DMRA".toList)]

/-- C30: fewer than 4 bytes raise EOFError; a prefix that is not ASCII raises UnicodeDecodeError; an unknown prefix
yields no body; in every decoded packet the prefix is the text of the first 4 bytes and it alone selects the class of the
body. -/
theorem C30_dispatch (b : Bytes) :
    (b.length < 4 → fromBytes Mmdvm2020.read b = .error .eof) ∧
    (4 ≤ b.length → (∀ s, encAscii s ≠ some (b.take 4)) → fromBytes Mmdvm2020.read b = .error .unicode) ∧
    (∀ s, 4 ≤ b.length → encAscii s = some (b.take 4) → Mmdvm2020.commands.lookup s = none →
      fromBytes Mmdvm2020.read b = .ok { command_prefix := s, command_data := none }) ∧
    (∀ x, fromBytes Mmdvm2020.read b = .ok x → 4 ≤ b.length ∧ encAscii x.command_prefix = some (b.take 4) ∧
      x.command_data.map Mmdvm2020.className = Mmdvm2020.commands.lookup x.command_prefix) := by
  rw [Mmdvm2020.fromBytes_eq]
  refine ⟨fun h => if_pos h, fun h hs => ?_, fun s h hs hu => ?_, fun x h => ?_⟩
  · have h' : ¬ b.length < 4 := by omega
    rw [if_neg h']
    rcases hd : decodeAscii (b.take 4) with _ | s
    · rfl
    · exact absurd ((decodeAscii_iff _ _).mp hd) (hs s)
  · have h' : ¬ b.length < 4 := by omega
    rw [if_neg h', (decodeAscii_iff _ _).mpr hs, decoded, Mmdvm2020.bodySpec_unknown s b 4 hu]; rfl
  · by_cases h' : b.length < 4
    · rw [if_pos h'] at h; cases h
    rw [if_neg h'] at h
    obtain ⟨s, hs, h⟩ := Hytera.of_decoded_ok h
    rcases hd : Mmdvm2020.bodySpec s b 4 with e | ⟨d, e⟩
    · rw [hd] at h; cases h
    · rw [hd] at h; cases h
      exact ⟨by omega, (decodeAscii_iff _ _).mp hs, Mmdvm2020.bodySpec_class _ _ _ _ _ hd⟩

/-- C30: `RPTL`, login request. -/
theorem C30_login (b : Bytes) (h : b.take 4 = asc "RPTL") :
    fromBytes Mmdvm2020.read b = if b.length < 8 then .error .eof else
      .ok { command_prefix := "RPTL".toList, command_data := some (.typeRepeaterLoginRequest { repeater_id := u32be b 4 }) } := by
  rw [Mmdvm2020.of_prefix b "RPTL" h rfl (by decide)]
  rw [show Mmdvm2020.bodySpec "RPTL".toList b 4 = (whole 4 Mmdvm2020.TypeRepeaterLoginRequest.spec b 4).as fun x => some (.typeRepeaterLoginRequest x) from rfl, map_as, whole]
  by_cases h8 : b.length < 8
  · have h8' : ¬ (4 + 4 ≤ b.length) := by omega
    rw [if_pos h8, if_neg h8']; rfl
  · have h8' : 4 + 4 ≤ b.length := by omega
    rw [if_neg h8, if_pos h8']; rfl

example : fromBytes Mmdvm2020.read (asc "RPTL" ++ [0, 35, 0, 1]) = .ok ⟨"RPTL".toList, some (.typeRepeaterLoginRequest ⟨0x230001⟩)⟩ := by
  rw [C30_login _ rfl]; decide

/-- C30: `RPTK`, login response: repeater id and 32 bytes of hash. -/
theorem C30_login_response (b : Bytes) (h : b.take 4 = asc "RPTK") :
    fromBytes Mmdvm2020.read b = if b.length < 40 then .error .eof else
      .ok { command_prefix := "RPTK".toList
            command_data := some (.typeRepeaterLoginResponse { repeater_id := u32be b 4, sha256 := slice b 8 32 }) } := by
  rw [Mmdvm2020.of_prefix b "RPTK" h rfl (by decide)]
  rw [show Mmdvm2020.bodySpec "RPTK".toList b 4 = (whole 36 Mmdvm2020.TypeRepeaterLoginResponse.spec b 4).as fun x => some (.typeRepeaterLoginResponse x) from rfl, map_as, whole]
  by_cases h8 : b.length < 40
  · have h8' : ¬ (4 + 36 ≤ b.length) := by omega
    rw [if_pos h8, if_neg h8']; rfl
  · have h8' : 4 + 36 ≤ b.length := by omega
    rw [if_neg h8, if_pos h8']; rfl

example : fromBytes Mmdvm2020.read (asc "RPTK" ++ [0, 35, 0, 1] ++ List.replicate 32 9) = .ok ⟨"RPTK".toList, some (.typeRepeaterLoginResponse ⟨0x230001, List.replicate 32 9⟩)⟩ := by
  rw [C30_login_response _ rfl]; decide

/-- C30: `MSTCL` and a 32 bit number. -/
theorem C30_master_closing (b : Bytes) (h : b.take 4 = asc "MSTC") :
    fromBytes Mmdvm2020.read b = fixedThenNumber b (asc "L") "/types/type_master_closing/seq/0" fun n =>
      { command_prefix := "MSTC".toList, command_data := some (.typeMasterClosing { magic := asc "L", repeater_id := n }) } := by
  rw [Mmdvm2020.of_prefix b "MSTC" h rfl (by decide)]
  rw [show Mmdvm2020.bodySpec "MSTC".toList b 4 = (Mmdvm2020.TypeMasterClosing.spec b 4).as fun x => some (.typeMasterClosing x) from rfl, map_as]
  exact magicThenId_eq [0x4c] _ _ b _ _ fun _ _ => rfl

example : fromBytes Mmdvm2020.read (asc "MSTCL" ++ [0, 35, 0, 1]) = .ok ⟨"MSTC".toList, some (.typeMasterClosing ⟨asc "L", 0x230001⟩)⟩ := by
  rw [C30_master_closing _ rfl]; decide

/-- C30: `MSTNAK` and a 32 bit number. -/
theorem C30_master_not_accept (b : Bytes) (h : b.take 4 = asc "MSTN") :
    fromBytes Mmdvm2020.read b = fixedThenNumber b (asc "AK") "/types/type_master_not_accept/seq/0" fun n =>
      { command_prefix := "MSTN".toList, command_data := some (.typeMasterNotAccept { magic := asc "AK", repeater_id := n }) } := by
  rw [Mmdvm2020.of_prefix b "MSTN" h rfl (by decide)]
  rw [show Mmdvm2020.bodySpec "MSTN".toList b 4 = (Mmdvm2020.TypeMasterNotAccept.spec b 4).as fun x => some (.typeMasterNotAccept x) from rfl, map_as]
  exact magicThenId_eq [0x41, 0x4b] _ _ b _ _ fun _ _ => rfl

example : fromBytes Mmdvm2020.read (asc "MSTNAK" ++ [0, 35, 0, 1]) = .ok ⟨"MSTN".toList, some (.typeMasterNotAccept ⟨asc "AK", 0x230001⟩)⟩ := by
  rw [C30_master_not_accept _ rfl]; decide

/-- C30: `RPTPING` and a 32 bit number. -/
theorem C30_repeater_ping (b : Bytes) (h : b.take 4 = asc "RPTP") :
    fromBytes Mmdvm2020.read b = fixedThenNumber b (asc "ING") "/types/type_repeater_ping/seq/0" fun n =>
      { command_prefix := "RPTP".toList, command_data := some (.typeRepeaterPing { magic := asc "ING", repeater_id := n }) } := by
  rw [Mmdvm2020.of_prefix b "RPTP" h rfl (by decide)]
  rw [show Mmdvm2020.bodySpec "RPTP".toList b 4 = (Mmdvm2020.TypeRepeaterPing.spec b 4).as fun x => some (.typeRepeaterPing x) from rfl, map_as]
  exact magicThenId_eq [0x49, 0x4e, 0x47] _ _ b _ _ fun _ _ => rfl

example : fromBytes Mmdvm2020.read (asc "RPTPING" ++ [0, 35, 0, 1]) = .ok ⟨"RPTP".toList, some (.typeRepeaterPing ⟨asc "ING", 0x230001⟩)⟩ := by
  rw [C30_repeater_ping _ rfl]; decide

/-- C30: `MSTPONG` and a 32 bit number. -/
theorem C30_master_pong (b : Bytes) (h : b.take 4 = asc "MSTP") :
    fromBytes Mmdvm2020.read b = fixedThenNumber b (asc "ONG") "/types/type_master_pong/seq/0" fun n =>
      { command_prefix := "MSTP".toList, command_data := some (.typeMasterPong { magic := asc "ONG", repeater_id := n }) } := by
  rw [Mmdvm2020.of_prefix b "MSTP" h rfl (by decide)]
  rw [show Mmdvm2020.bodySpec "MSTP".toList b 4 = (Mmdvm2020.TypeMasterPong.spec b 4).as fun x => some (.typeMasterPong x) from rfl, map_as]
  exact magicThenId_eq [0x4f, 0x4e, 0x47] _ _ b _ _ fun _ _ => rfl

example : fromBytes Mmdvm2020.read (asc "MSTPONG" ++ [0, 35, 0, 1]) = .ok ⟨"MSTP".toList, some (.typeMasterPong ⟨asc "ONG", 0x230001⟩)⟩ := by
  rw [C30_master_pong _ rfl]; decide

/-- C30: `RPTACK` and a 32 bit number. -/
theorem C30_master_repeater_ack (b : Bytes) (h : b.take 4 = asc "RPTA") :
    fromBytes Mmdvm2020.read b = fixedThenNumber b (asc "CK") "/types/type_master_repeater_ack/seq/0" fun n =>
      { command_prefix := "RPTA".toList, command_data := some (.typeMasterRepeaterAck { magic := asc "CK", repeater_id_or_challenge := n }) } := by
  rw [Mmdvm2020.of_prefix b "RPTA" h rfl (by decide)]
  rw [show Mmdvm2020.bodySpec "RPTA".toList b 4 = (Mmdvm2020.TypeMasterRepeaterAck.spec b 4).as fun x => some (.typeMasterRepeaterAck x) from rfl, map_as]
  exact magicThenId_eq [0x43, 0x4b] _ _ b _ _ fun _ _ => rfl

example : fromBytes Mmdvm2020.read (asc "RPTACK" ++ [0, 35, 0, 1]) = .ok ⟨"RPTA".toList, some (.typeMasterRepeaterAck ⟨asc "CK", 0x230001⟩)⟩ := by
  rw [C30_master_repeater_ack _ rfl]; decide

/-- C30: `RPTSBKN` beacon: nothing is read after the prefix. -/
theorem C30_beacon (b : Bytes) (h : b.take 4 = asc "RPTS") :
    fromBytes Mmdvm2020.read b = .ok { command_prefix := "RPTS".toList, command_data := some (.typeRepeaterBeacon {}) } := by
  rw [Mmdvm2020.of_prefix b "RPTS" h rfl (by decide)]
  rfl

example := C30_beacon (asc "RPTSBKN" ++ [0, 35, 0, 1]) rfl

/-- C30: `DMRG`, radio position: 24 bit id, 3 bit position error, 25 bit longitude, 24 bit latitude. -/
theorem C30_position (b : Bytes) (h : b.take 4 = asc "DMRG") :
    fromBytes Mmdvm2020.read b = if b.length < 14 then .error .eof else
      .ok { command_prefix := "DMRG".toList
            command_data := some (.typeRadioPosition
              { radio_id := u24be b 4
                reserved := u8 b 7 / 16
                position_error := resolveEnum _ (u8 b 7 / 2 % 8)
                longitude := u8 b 7 % 2 * 2 ^ 24 + u24be b 8
                latitude := u24be b 11 }) } := by
  rw [Mmdvm2020.of_prefix b "DMRG" h rfl (by decide)]
  rw [show Mmdvm2020.bodySpec "DMRG".toList b 4 = (whole 10 Mmdvm2020.TypeRadioPosition.spec b 4).as fun x => some (.typeRadioPosition x) from rfl, map_as, whole]
  by_cases h8 : b.length < 14
  · have h8' : ¬ (4 + 10 ≤ b.length) := by omega
    rw [if_pos h8, if_neg h8']; rfl
  · have h8' : 4 + 10 ≤ b.length := by omega
    rw [if_neg h8, if_pos h8']
    have e1 : bitsAt b (8 * 4 + 24) 4 = u8 b 7 / 16 := by
      rw [show 8 * 4 + 24 = 8 * 7 + 0 from rfl, bitsAt_byte b 7 0 4 (by omega) (by omega)]
      have := u8_lt b 7; norm_num; omega
    have e2 : bitsAt b (8 * 4 + 28) 3 = u8 b 7 / 2 % 8 := by
      rw [show 8 * 4 + 28 = 8 * 7 + 4 from rfl, bitsAt_byte b 7 4 3 (by omega) (by omega)]; norm_num
    have e3 : bitsAt b (8 * 4 + 31) 25 = u8 b 7 % 2 * 2 ^ 24 + u24be b 8 := by
      rw [show 25 = 1 + 24 from rfl, bitsAt_add _ _ _ _ (by omega), show 8 * 4 + 31 = 8 * 7 + 7 from rfl,
        bitsAt_byte b 7 7 1 (by omega) (by omega), show 8 * 7 + 7 + 1 = 8 * 8 from rfl, bitsAt_24 b 8 (by omega)]
      norm_num
    have e4 : bitsAt b (8 * 4 + 56) 24 = u24be b 11 := bitsAt_24 b 11 (by omega)
    have e5 : bitsAt b (8 * 4) 24 = u24be b 4 := bitsAt_24 b 4 (by omega)
    simp only [Except.map, Mmdvm2020.TypeRadioPosition.spec, e1, e2, e3, e4, e5]

example : fromBytes Mmdvm2020.read (asc "DMRG" ++ [0, 0, 7, 0x0B, 0, 0, 1, 0, 0, 2]) = .ok ⟨"DMRG".toList, some (.typeRadioPosition ⟨7, 0, resolveEnum _ 5, 16777217, 2⟩)⟩ := by
  rw [C30_position _ rfl]; decide

/-- C30: `DMRA`, talker alias block: 24 bit id, block number, 8 ASCII bytes. -/
theorem C30_talker_alias (b : Bytes) (h : b.take 4 = asc "DMRA") :
    (b.length < 16 → fromBytes Mmdvm2020.read b = .error .eof) ∧
    (16 ≤ b.length → (∀ s, encAscii s ≠ some (slice b 8 8)) → fromBytes Mmdvm2020.read b = .error .unicode) ∧
    (∀ s, 16 ≤ b.length → encAscii s = some (slice b 8 8) → fromBytes Mmdvm2020.read b =
      .ok { command_prefix := "DMRA".toList
            command_data := some (.typeTalkerAlias
              { radio_id := u24be b 4, talker_alias_type := resolveEnum _ (u8 b 7), talker_alias := s }) }) := by
  rw [Mmdvm2020.of_prefix b "DMRA" h rfl (by decide)]
  rw [show Mmdvm2020.bodySpec "DMRA".toList b 4 = (Mmdvm2020.TypeTalkerAlias.spec b 4).as fun x => some (.typeTalkerAlias x) from rfl, map_as]
  unfold Mmdvm2020.TypeTalkerAlias.spec upTo textAt
  simp only [Nat.reduceAdd]
  refine ⟨fun h => ?_, fun h hs => ?_, fun s h hs => ?_⟩
  · have h' : ¬ (16 ≤ b.length) := by omega
    rw [if_neg h']; split <;> rfl
  · have h8 : 8 ≤ b.length := by omega
    rw [if_pos h8, if_pos h]
    rcases hd : decodeAscii (slice b 8 8) with _ | s
    · rfl
    · exact absurd ((decodeAscii_iff _ _).mp hd) (hs s)
  · have h8 : 8 ≤ b.length := by omega
    have e5 : bitsAt b (8 * 4) 24 = u24be b 4 := bitsAt_24 b 4 (by omega)
    rw [if_pos h8, if_pos h, (decodeAscii_iff _ _).mpr hs, e5]; rfl

example : fromBytes Mmdvm2020.read (asc "DMRA" ++ [0, 0, 7, 1] ++ asc "OK1DMR  ") =
    .ok ⟨"DMRA".toList, some (.typeTalkerAlias ⟨7, resolveEnum _ 1, "OK1DMR  ".toList⟩)⟩ :=
  (C30_talker_alias _ rfl).2.2 _ (by decide) (by decide)

/-- C30: `RPTO`, repeater id and all the rest as ASCII. -/
theorem C30_options (b : Bytes) (h : b.take 4 = asc "RPTO") :
    (b.length < 8 → fromBytes Mmdvm2020.read b = .error .eof) ∧
    (8 ≤ b.length → (∀ s, encAscii s ≠ some (b.drop 8)) → fromBytes Mmdvm2020.read b = .error .unicode) ∧
    (∀ s, 8 ≤ b.length → encAscii s = some (b.drop 8) → fromBytes Mmdvm2020.read b =
      .ok { command_prefix := "RPTO".toList
            command_data := some (.typeRepeaterOptions { repeater_id := u32be b 4, options := s }) }) := by
  rw [Mmdvm2020.of_prefix b "RPTO" h rfl (by decide)]
  rw [show Mmdvm2020.bodySpec "RPTO".toList b 4 = (Mmdvm2020.TypeRepeaterOptions.spec b 4).as fun x => some (.typeRepeaterOptions x) from rfl, map_as]
  unfold Mmdvm2020.TypeRepeaterOptions.spec upTo
  simp only [Nat.reduceAdd]
  refine ⟨fun h => ?_, fun h hs => ?_, fun s h hs => ?_⟩
  · have h' : ¬ (8 ≤ b.length) := by omega
    rw [if_neg h']; rfl
  · rw [if_pos h]
    rcases hd : decodeAscii (b.drop 8) with _ | s
    · rfl
    · exact absurd ((decodeAscii_iff _ _).mp hd) (hs s)
  · rw [if_pos h, (decodeAscii_iff _ _).mpr hs]; rfl

example : fromBytes Mmdvm2020.read (asc "RPTO" ++ [0, 35, 0, 1] ++ asc "TS1=1;") =
    .ok ⟨"RPTO".toList, some (.typeRepeaterOptions ⟨0x230001, "TS1=1;".toList⟩)⟩ :=
  (C30_options _ rfl).2.2 _ (by decide) (by decide)

/-- C30: an `RPTC` packet decoded as a configuration: repeater id and ASCII columns at these offsets, and all the rest. -/
theorem C30_configuration (b : Bytes) (x : Mmdvm2020.TypeRepeaterConfiguration) (h : b.take 4 = asc "RPTC")
    (hx : fromBytes Mmdvm2020.read b = .ok ⟨"RPTC".toList, some (.typeRepeaterConfigurationOrClosing ⟨.typeRepeaterConfiguration x⟩)⟩) :
    302 ≤ b.length ∧ x.repeater_id = u32be b 4 ∧
    encAscii x.call_sign = some (slice b 8 8) ∧
    encAscii x.rx_freq = some (slice b 16 9) ∧
    encAscii x.tx_freq = some (slice b 25 9) ∧
    encAscii x.tx_power = some (slice b 34 2) ∧
    encAscii x.color_code = some (slice b 36 2) ∧
    encAscii x.latitude = some (slice b 38 8) ∧
    encAscii x.longitude = some (slice b 46 9) ∧
    encAscii x.antenna_height_above_ground = some (slice b 55 3) ∧
    encAscii x.location = some (slice b 58 20) ∧
    encAscii x.description = some (slice b 78 19) ∧
    encAscii x.slots = some (slice b 97 1) ∧
    encAscii x.url = some (slice b 98 124) ∧
    encAscii x.software_id = some (slice b 222 40) ∧
    encAscii x.package_id = some (slice b 262 40) ∧
    encAscii x.unparsed_data = some (b.drop 302) := by
  rw [Mmdvm2020.of_prefix b "RPTC" h rfl (by decide),
    show Mmdvm2020.bodySpec "RPTC".toList b 4 = (Mmdvm2020.TypeRepeaterConfigurationOrClosing.spec b 4).as fun x => some (.typeRepeaterConfigurationOrClosing x) from rfl, map_as] at hx
  rcases hd : Mmdvm2020.TypeRepeaterConfigurationOrClosing.spec b 4 with e | ⟨d, e⟩
  · rw [hd] at hx; cases hx
  rw [hd] at hx; cases hx
  unfold Mmdvm2020.TypeRepeaterConfigurationOrClosing.spec at hd
  obtain ⟨_, hd⟩ := of_upTo_ok hd
  split at hd
  · cases hd
  split at hd
  · obtain ⟨_, _, hd⟩ := of_as_ok hd; cases hd
  obtain ⟨x', hd, hx'⟩ := of_as_ok hd
  cases hx'
  unfold Mmdvm2020.TypeRepeaterConfiguration.spec at hd
  obtain ⟨_, hd⟩ := of_upTo_ok hd
  obtain ⟨l0, s0, t0, hd⟩ := of_textAt_ok hd
  obtain ⟨l1, s1, t1, hd⟩ := of_textAt_ok hd
  obtain ⟨l2, s2, t2, hd⟩ := of_textAt_ok hd
  obtain ⟨l3, s3, t3, hd⟩ := of_textAt_ok hd
  obtain ⟨l4, s4, t4, hd⟩ := of_textAt_ok hd
  obtain ⟨l5, s5, t5, hd⟩ := of_textAt_ok hd
  obtain ⟨l6, s6, t6, hd⟩ := of_textAt_ok hd
  obtain ⟨l7, s7, t7, hd⟩ := of_textAt_ok hd
  obtain ⟨l8, s8, t8, hd⟩ := of_textAt_ok hd
  obtain ⟨l9, s9, t9, hd⟩ := of_textAt_ok hd
  obtain ⟨l10, s10, t10, hd⟩ := of_textAt_ok hd
  obtain ⟨l11, s11, t11, hd⟩ := of_textAt_ok hd
  obtain ⟨l12, s12, t12, hd⟩ := of_textAt_ok hd
  obtain ⟨l13, s13, t13, hd⟩ := of_textAt_ok hd
  obtain ⟨r, t, hd⟩ := Hytera.of_decoded_ok hd
  cases hd
  refine ⟨by omega, rfl, (decodeAscii_iff _ _).mp t0, (decodeAscii_iff _ _).mp t1, (decodeAscii_iff _ _).mp t2, (decodeAscii_iff _ _).mp t3, (decodeAscii_iff _ _).mp t4, (decodeAscii_iff _ _).mp t5, (decodeAscii_iff _ _).mp t6, (decodeAscii_iff _ _).mp t7, (decodeAscii_iff _ _).mp t8, (decodeAscii_iff _ _).mp t9, (decodeAscii_iff _ _).mp t10, (decodeAscii_iff _ _).mp t11, (decodeAscii_iff _ _).mp t12, (decodeAscii_iff _ _).mp t13, (decodeAscii_iff _ _).mp t⟩

/-- C30: how an `RPTC` packet whose fifth byte is ASCII but not `L` fails: cut short it raises EOFError or, if some
complete column is not ASCII, UnicodeDecodeError; long enough it raises UnicodeDecodeError exactly if some byte after the
repeater id is not ASCII. -/
theorem C30_configuration_accept (b : Bytes) (h : b.take 4 = asc "RPTC") (h5 : u8 b 4 < 128) (hL : u8 b 4 ≠ 0x4C) :
    (b.length < 302 → fromBytes Mmdvm2020.read b = .error .eof ∨ fromBytes Mmdvm2020.read b = .error .unicode) ∧
    (302 ≤ b.length → (∀ i, 8 ≤ i → i < b.length → u8 b i < 128) →
      ∃ x, fromBytes Mmdvm2020.read b = .ok ⟨"RPTC".toList, some (.typeRepeaterConfigurationOrClosing ⟨.typeRepeaterConfiguration x⟩)⟩) ∧
    (302 ≤ b.length → (∃ i, 8 ≤ i ∧ i < b.length ∧ 128 ≤ u8 b i) → fromBytes Mmdvm2020.read b = .error .unicode) := by
  have hv : fromBytes Mmdvm2020.read b = (Mmdvm2020.TypeRepeaterConfigurationOrClosing.spec b 4).map fun d =>
      { command_prefix := "RPTC".toList, command_data := some (.typeRepeaterConfigurationOrClosing d.1) } := by
    rw [Mmdvm2020.of_prefix b "RPTC" h rfl (by decide),
      show Mmdvm2020.bodySpec "RPTC".toList b 4 = (Mmdvm2020.TypeRepeaterConfigurationOrClosing.spec b 4).as fun x => some (.typeRepeaterConfigurationOrClosing x) from rfl, map_as]
  have hle : ¬ 128 ≤ u8 b 4 := by omega
  have hsp : Mmdvm2020.TypeRepeaterConfigurationOrClosing.spec b 4 = upTo b 5 ((Mmdvm2020.TypeRepeaterConfiguration.spec b 4).as fun x => ⟨.typeRepeaterConfiguration x⟩) := by
    unfold Mmdvm2020.TypeRepeaterConfigurationOrClosing.spec
    rw [if_neg hle, if_neg hL]
  refine ⟨fun hs => ?_, fun hl ha => ?_, fun hl ⟨i, hi8, hil, hi⟩ => ?_⟩
  · have hf : Fails [.eof, .unicode] (Mmdvm2020.TypeRepeaterConfiguration.spec b 4) := by
      unfold Mmdvm2020.TypeRepeaterConfiguration.spec
      refine .upTo (by simp) ?_
      refine .textAt (by simp) (by simp) fun _ _ => ?_
      refine .textAt (by simp) (by simp) fun _ _ => ?_
      refine .textAt (by simp) (by simp) fun _ _ => ?_
      refine .textAt (by simp) (by simp) fun _ _ => ?_
      refine .textAt (by simp) (by simp) fun _ _ => ?_
      refine .textAt (by simp) (by simp) fun _ _ => ?_
      refine .textAt (by simp) (by simp) fun _ _ => ?_
      refine .textAt (by simp) (by simp) fun _ _ => ?_
      refine .textAt (by simp) (by simp) fun _ _ => ?_
      refine .textAt (by simp) (by simp) fun _ _ => ?_
      refine .textAt (by simp) (by simp) fun _ _ => ?_
      refine .textAt (by simp) (by simp) fun _ _ => ?_
      refine .textAt (by simp) (by simp) fun _ _ => ?_
      exact .textAt (by simp) (by simp) fun _ _ => by omega
    have hf' : Fails [.eof, .unicode] (Mmdvm2020.TypeRepeaterConfigurationOrClosing.spec b 4) := by
      rw [hsp]
      refine .upTo (by simp) ?_
      obtain ⟨e, he, hf⟩ := hf
      exact ⟨e, he, by rw [hf]; rfl⟩
    obtain ⟨e, he, hf'⟩ := hf'
    rw [hv, hf']
    simp only [List.mem_cons, List.not_mem_nil, or_false] at he
    rcases he with rfl | rfl
    · exact .inl rfl
    · exact .inr rfl
  · rw [hv, hsp, upTo, if_pos (by omega)]
    unfold Mmdvm2020.TypeRepeaterConfiguration.spec
    rw [upTo, if_pos (by omega)]
    obtain ⟨s0, e0⟩ := textAt_ascii b 8 8 (by omega) (fun i h1 h2 => ha i (by omega) (by omega))
    rw [show (4 + 4 = 8) from rfl, e0]
    obtain ⟨s1, e1⟩ := textAt_ascii b 16 9 (by omega) (fun i h1 h2 => ha i (by omega) (by omega))
    rw [show (4 + 12 = 16) from rfl, e1]
    obtain ⟨s2, e2⟩ := textAt_ascii b 25 9 (by omega) (fun i h1 h2 => ha i (by omega) (by omega))
    rw [show (4 + 21 = 25) from rfl, e2]
    obtain ⟨s3, e3⟩ := textAt_ascii b 34 2 (by omega) (fun i h1 h2 => ha i (by omega) (by omega))
    rw [show (4 + 30 = 34) from rfl, e3]
    obtain ⟨s4, e4⟩ := textAt_ascii b 36 2 (by omega) (fun i h1 h2 => ha i (by omega) (by omega))
    rw [show (4 + 32 = 36) from rfl, e4]
    obtain ⟨s5, e5⟩ := textAt_ascii b 38 8 (by omega) (fun i h1 h2 => ha i (by omega) (by omega))
    rw [show (4 + 34 = 38) from rfl, e5]
    obtain ⟨s6, e6⟩ := textAt_ascii b 46 9 (by omega) (fun i h1 h2 => ha i (by omega) (by omega))
    rw [show (4 + 42 = 46) from rfl, e6]
    obtain ⟨s7, e7⟩ := textAt_ascii b 55 3 (by omega) (fun i h1 h2 => ha i (by omega) (by omega))
    rw [show (4 + 51 = 55) from rfl, e7]
    obtain ⟨s8, e8⟩ := textAt_ascii b 58 20 (by omega) (fun i h1 h2 => ha i (by omega) (by omega))
    rw [show (4 + 54 = 58) from rfl, e8]
    obtain ⟨s9, e9⟩ := textAt_ascii b 78 19 (by omega) (fun i h1 h2 => ha i (by omega) (by omega))
    rw [show (4 + 74 = 78) from rfl, e9]
    obtain ⟨s10, e10⟩ := textAt_ascii b 97 1 (by omega) (fun i h1 h2 => ha i (by omega) (by omega))
    rw [show (4 + 93 = 97) from rfl, e10]
    obtain ⟨s11, e11⟩ := textAt_ascii b 98 124 (by omega) (fun i h1 h2 => ha i (by omega) (by omega))
    rw [show (4 + 94 = 98) from rfl, e11]
    obtain ⟨s12, e12⟩ := textAt_ascii b 222 40 (by omega) (fun i h1 h2 => ha i (by omega) (by omega))
    rw [show (4 + 218 = 222) from rfl, e12]
    obtain ⟨s13, e13⟩ := textAt_ascii b 262 40 (by omega) (fun i h1 h2 => ha i (by omega) (by omega))
    rw [show (4 + 258 = 262) from rfl, e13]
    obtain ⟨s, hs⟩ := decodeAscii_drop_ok b (4 + 298) (by intro j h1 h2; exact ha j (by omega) h2)
    rw [hs]
    exact ⟨_, rfl⟩
  · rcases hr : fromBytes Mmdvm2020.read b with e | y
    · rw [hv, hsp, upTo, if_pos (by omega)] at hr
      have hf : ∀ e, Mmdvm2020.TypeRepeaterConfiguration.spec b 4 = .error e → e = .unicode := by
        unfold Mmdvm2020.TypeRepeaterConfiguration.spec
        rw [upTo, if_pos (by omega)]
        refine textAt_unicode (by omega) fun _ => ?_
        refine textAt_unicode (by omega) fun _ => ?_
        refine textAt_unicode (by omega) fun _ => ?_
        refine textAt_unicode (by omega) fun _ => ?_
        refine textAt_unicode (by omega) fun _ => ?_
        refine textAt_unicode (by omega) fun _ => ?_
        refine textAt_unicode (by omega) fun _ => ?_
        refine textAt_unicode (by omega) fun _ => ?_
        refine textAt_unicode (by omega) fun _ => ?_
        refine textAt_unicode (by omega) fun _ => ?_
        refine textAt_unicode (by omega) fun _ => ?_
        refine textAt_unicode (by omega) fun _ => ?_
        refine textAt_unicode (by omega) fun _ => ?_
        refine textAt_unicode (by omega) fun _ => ?_
        intro e
        rcases decodeAscii (b.drop (4 + 298)) with _ | s
        · intro h; cases h; rfl
        · intro h; cases h
      rcases hd : Mmdvm2020.TypeRepeaterConfiguration.spec b 4 with e' | ⟨d, e'⟩
      · rw [hd] at hr
        rw [hf e' hd] at hr
        cases hr; rfl
      · rw [hd] at hr; cases hr
    · exfalso
      have hy : ∃ x, y = ⟨"RPTC".toList, some (.typeRepeaterConfigurationOrClosing ⟨.typeRepeaterConfiguration x⟩)⟩ := by
        rw [hv, hsp, upTo, if_pos (by omega)] at hr
        rcases hd : Mmdvm2020.TypeRepeaterConfiguration.spec b 4 with e' | ⟨d, e'⟩
        · rw [hd] at hr; cases hr
        · rw [hd] at hr; cases hr; exact ⟨d, rfl⟩
      obtain ⟨x, rfl⟩ := hy
      have hc := C30_configuration b x h hr
      obtain ⟨_, _, t0, t1, t2, t3, t4, t5, t6, t7, t8, t9, t10, t11, t12, t13, t⟩ := hc
      by_cases c0 : i < 16
      · have := encAscii_lt t0 (by omega) i (by omega) c0
        omega
      by_cases c1 : i < 25
      · have := encAscii_lt t1 (by omega) i (by omega) c1
        omega
      by_cases c2 : i < 34
      · have := encAscii_lt t2 (by omega) i (by omega) c2
        omega
      by_cases c3 : i < 36
      · have := encAscii_lt t3 (by omega) i (by omega) c3
        omega
      by_cases c4 : i < 38
      · have := encAscii_lt t4 (by omega) i (by omega) c4
        omega
      by_cases c5 : i < 46
      · have := encAscii_lt t5 (by omega) i (by omega) c5
        omega
      by_cases c6 : i < 55
      · have := encAscii_lt t6 (by omega) i (by omega) c6
        omega
      by_cases c7 : i < 58
      · have := encAscii_lt t7 (by omega) i (by omega) c7
        omega
      by_cases c8 : i < 78
      · have := encAscii_lt t8 (by omega) i (by omega) c8
        omega
      by_cases c9 : i < 97
      · have := encAscii_lt t9 (by omega) i (by omega) c9
        omega
      by_cases c10 : i < 98
      · have := encAscii_lt t10 (by omega) i (by omega) c10
        omega
      by_cases c11 : i < 222
      · have := encAscii_lt t11 (by omega) i (by omega) c11
        omega
      by_cases c12 : i < 262
      · have := encAscii_lt t12 (by omega) i (by omega) c12
        omega
      by_cases c13 : i < 302
      · have := encAscii_lt t13 (by omega) i (by omega) c13
        omega
      have := encAscii_drop_lt t i (by omega) hil
      omega

/-- A configuration of 302 letters after the number, and the one before with a letter that is not ASCII. -/
example : ∃ x, fromBytes Mmdvm2020.read (asc "RPTC" ++ [0, 35, 0, 1] ++ List.replicate 300 0x41) =
      .ok ⟨"RPTC".toList, some (.typeRepeaterConfigurationOrClosing ⟨.typeRepeaterConfiguration x⟩)⟩ ∧
    encAscii x.url = some (List.replicate 124 0x41) := by
  obtain ⟨x, hx⟩ := (C30_configuration_accept (asc "RPTC" ++ [0, 35, 0, 1] ++ List.replicate 300 0x41) rfl (by decide) (by decide)).2.1
    (by decide +kernel) (fun i h1 h2 => by
      have : (asc "RPTC" ++ [0, 35, 0, 1] ++ List.replicate 300 0x41).getD i 0 = 0x41 := by
        rw [List.getD_eq_getElem?_getD, List.getElem?_append_right (show 8 ≤ i from h1), List.getElem?_replicate,
          if_pos (by simp only [List.length_append, List.length_replicate] at h2 ⊢; have : (asc "RPTC").length = 4 := rfl; simp only [this, List.length_cons, List.length_nil] at h2 ⊢; omega)]; rfl
      rw [u8, this]; decide)
  exact ⟨x, hx, (C30_configuration _ x rfl hx).2.2.2.2.2.2.2.2.2.2.2.2.2.1.trans (by rfl)⟩
example := (C30_configuration_accept (asc "RPTC" ++ [0, 35, 0, 1] ++ List.replicate 299 0x41 ++ [0x80]) rfl (by decide) (by decide)).2.2
  (by decide +kernel) ⟨307, by decide, by decide +kernel, by decide +kernel⟩

/-- C31: a `DMRD` packet in Homebrew2015: below 53 bytes EOFError; bit error rate from 54 bytes on, RSSI from 55 on. -/
theorem C31_homebrew (b : Bytes) (h : b.take 4 = asc "DMRD") :
    fromBytes Homebrew2015.read b = if b.length < 53 then .error .eof else
      .ok { command_prefix := "DMRD".toList
            command_data := some (.typeDmrData
              { sequence_no := u8 b 4
                source_id := u24be b 5
                target_id := u24be b 8
                repeater_id := u32be b 11
                slot_no := resolveEnum _ (u8 b 15 / 128)
                call_type := resolveEnum _ (u8 b 15 / 64 % 2)
                frame_type := resolveEnum _ (u8 b 15 / 16 % 4)
                data_type := u8 b 15 % 16
                stream_id := u32be b 16
                dmr_data := slice b 20 33
                bit_error_rate := if 54 ≤ b.length then some (u8 b 53) else none
                rssi := if 55 ≤ b.length then some (u8 b 54) else none }) } := by
  rw [Homebrew2015.of_prefix b "DMRD" h rfl (by decide),
    show Homebrew2015.bodySpec "DMRD".toList b 4 = (Homebrew2015.TypeDmrData.spec b 4).as fun x => some (.typeDmrData x) from rfl, map_as]
  unfold Homebrew2015.TypeDmrData.spec upTo optPart whole
  by_cases h1 : b.length < 53
  · have h1' : ¬ (4 + 49 ≤ b.length) := by omega
    rw [if_pos h1, if_neg h1']; rfl
  have h1' : 4 + 49 ≤ b.length := by omega
  have h2 := u8_lt b 15
  have e1 : bitsAt b (8 * 4 + 8) 24 = u24be b 5 := bitsAt_24 b 5 (by omega)
  have e2 : bitsAt b (8 * 4 + 32) 24 = u24be b 8 := bitsAt_24 b 8 (by omega)
  have e3 : bitsAt b (8 * 4 + 88) 1 = u8 b 15 / 128 := by
    rw [show 8 * 4 + 88 = 8 * 15 + 0 from rfl, bitsAt_byte b 15 0 1 (by omega) (by omega)]; norm_num; omega
  have e4 : bitsAt b (8 * 4 + 89) 1 = u8 b 15 / 64 % 2 := by
    rw [show 8 * 4 + 89 = 8 * 15 + 1 from rfl, bitsAt_byte b 15 1 1 (by omega) (by omega)]; norm_num
  have e5 : bitsAt b (8 * 4 + 90) 2 = u8 b 15 / 16 % 4 := by
    rw [show 8 * 4 + 90 = 8 * 15 + 2 from rfl, bitsAt_byte b 15 2 2 (by omega) (by omega)]; norm_num
  have e6 : bitsAt b (8 * 4 + 92) 4 = u8 b 15 % 16 := by
    rw [show 8 * 4 + 92 = 8 * 15 + 4 from rfl, bitsAt_byte b 15 4 4 (by omega) (by omega)]; norm_num
  simp only [e1, e2, e3, e4, e5, e6]
  rw [if_neg h1, if_pos h1']
  by_cases h3 : 54 ≤ b.length
  · have h3' : 4 + 49 < b.length := by omega
    have h3'' : 4 + 49 + 1 ≤ b.length := by omega
    rw [if_pos h3', if_pos h3'', Parsed.as, next, if_pos h3'', if_pos h3]
    by_cases h4 : 55 ≤ b.length
    · have h4' : 4 + 49 + 1 < b.length := by omega
      have h4'' : 4 + 49 + 1 + 1 ≤ b.length := by omega
      simp only [if_pos h4', if_pos h4'', Parsed.as, next, if_pos h4]; rfl
    · have h4' : ¬ (4 + 49 + 1 < b.length) := by omega
      rw [if_neg h4', next, if_pos h3'', if_neg h4]; rfl
  · have h3' : ¬ (4 + 49 < b.length) := by omega
    have h4 : ¬ (55 ≤ b.length) := by omega
    simp only [if_neg h3', next, if_pos h1', if_neg h3, if_neg h4]; rfl

example : fromBytes Homebrew2015.read (asc "DMRD" ++ List.replicate 50 7) = .ok ⟨"DMRD".toList, some (.typeDmrData ⟨7, 0x070707, 0x070707, 0x07070707, resolveEnum _ 0, resolveEnum _ 0, resolveEnum _ 0, 7, 0x07070707, List.replicate 33 7, some 7, none⟩)⟩ := by
  rw [C31_homebrew _ rfl]; decide +kernel

theorem Homebrew2015.rptc (b : Bytes) (h : b.take 4 = asc "RPTC") : fromBytes Homebrew2015.read b =
    (Homebrew2015.TypeRepeaterConfigurationOrClosing.spec b 4).map fun d =>
      ⟨"RPTC".toList, some (.typeRepeaterConfigurationOrClosing d.1)⟩ := by
  rw [Homebrew2015.of_prefix b "RPTC" h rfl (by decide),
    show Homebrew2015.bodySpec "RPTC".toList b 4 = (Homebrew2015.TypeRepeaterConfigurationOrClosing.spec b 4).as fun x => some (.typeRepeaterConfigurationOrClosing x) from rfl, map_as]

/-- C32 (Homebrew2015): an `RPTC` packet whose fifth byte is `L` is always taken as closing, with the id in the 4 bytes after it. -/
theorem C32_homebrew_closing (b : Bytes) (h : b.take 4 = asc "RPTC") (hL : u8 b 4 = 0x4C) :
    fromBytes Homebrew2015.read b = if b.length < 9 then .error .eof else
      .ok ⟨"RPTC".toList, some (.typeRepeaterConfigurationOrClosing
        ⟨.typeRepeaterClosing { magic := asc "L", repeater_id := u32be b 5 }⟩)⟩ := by
  have h5 : ¬ 128 ≤ u8 b 4 := by omega
  rw [Homebrew2015.rptc b h, Homebrew2015.TypeRepeaterConfigurationOrClosing.spec, if_neg h5, if_pos hL, upTo]
  by_cases hl : b.length < 5
  · have hl' : ¬ 5 ≤ b.length := by omega
    have h9 : b.length < 9 := by omega
    rw [if_neg hl', if_pos h9]; rfl
  have hl' : 5 ≤ b.length := by omega
  rw [if_pos hl', map_as, Homebrew2015.TypeRepeaterClosing.spec]
  rw [magicThenId_eq [0x4c] _ _ b _ (fun n => ⟨"RPTC".toList, some (.typeRepeaterConfigurationOrClosing
        ⟨.typeRepeaterClosing { magic := asc "L", repeater_id := n }⟩)⟩) (fun _ _ => rfl), fixedThenNumber]
  have hs := (slice_one_eq b 4 0x4C (by omega)).mpr hL
  simp only [List.length_cons, List.length_nil, Nat.zero_add, Nat.reduceAdd, hs, ne_eq, not_true, if_false, hl]

example : fromBytes Homebrew2015.read (asc "RPTCL" ++ [0, 35, 0, 1]) =
    .ok ⟨"RPTC".toList, some (.typeRepeaterConfigurationOrClosing ⟨.typeRepeaterClosing ⟨asc "L", 0x230001⟩⟩)⟩ := by
  rw [C32_homebrew_closing _ rfl (by decide)]; decide

/-- C32 (Homebrew2015): an `RPTC` packet is taken as closing iff its fifth byte is `L` (and the 4 byte id is complete). -/
theorem C32_homebrew_iff (b : Bytes) (h : b.take 4 = asc "RPTC") :
    (∃ x, fromBytes Homebrew2015.read b = .ok ⟨"RPTC".toList, some (.typeRepeaterConfigurationOrClosing ⟨.typeRepeaterClosing x⟩)⟩) ↔
      9 ≤ b.length ∧ u8 b 4 = 0x4C := by
  by_cases hL : u8 b 4 = 0x4C
  · rw [C32_homebrew_closing b h hL]
    by_cases hl : b.length < 9
    · rw [if_pos hl]
      exact ⟨fun ⟨_, hx⟩ => (by cases hx), fun hx => absurd hx.1 (by omega)⟩
    · rw [if_neg hl]
      exact ⟨fun _ => ⟨by omega, hL⟩, fun _ => ⟨_, rfl⟩⟩
  · refine ⟨fun ⟨x, hx⟩ => ?_, fun hx => absurd hx.2 hL⟩
    rw [Homebrew2015.rptc b h, Homebrew2015.TypeRepeaterConfigurationOrClosing.spec, if_neg hL, upTo] at hx
    split at hx
    · split at hx
      · cases hx
      · rcases hd : Homebrew2015.TypeRepeaterConfiguration.spec b 4 with e | ⟨d, e⟩ <;> rw [hd] at hx <;> cases hx
    · cases hx

example := C32_homebrew_iff (asc "RPTC" ++ [0x4C, 35, 0, 1, 2]) rfl

/-- C32 (Homebrew2015): a fifth byte of 80 or more raises UnicodeDecodeError, whatever follows. -/
theorem C32_homebrew_high (b : Bytes) (h : b.take 4 = asc "RPTC") (hl : 5 ≤ b.length) (hH : 128 ≤ u8 b 4) :
    fromBytes Homebrew2015.read b = .error .unicode := by
  rw [Homebrew2015.rptc b h, Homebrew2015.TypeRepeaterConfigurationOrClosing.spec, upTo, if_pos hl, if_pos hH]; rfl

/-- Repeater 2156068865, which is too big for a DMR number. -/
example := C32_homebrew_high (asc "RPTC" ++ [0x80, 0x82, 0xFC, 1] ++ List.replicate 298 0x41) rfl (by decide +kernel) (by decide)

/-- C32 (Homebrew2015): a configuration whose id is at most 999999999 is decoded as a configuration (given that its text is
ASCII and complete) and with that id, and never as closing, nor does it fail because of its fifth byte. -/
theorem C32_homebrew_safe_ids (b : Bytes) (h : b.take 4 = asc "RPTC") (hid : u32be b 4 ≤ 999999999) :
    u8 b 4 < 128 ∧
    (∀ x, fromBytes Homebrew2015.read b ≠ .ok ⟨"RPTC".toList, some (.typeRepeaterConfigurationOrClosing ⟨.typeRepeaterClosing x⟩)⟩) ∧
    (302 ≤ b.length → (∀ i, 8 ≤ i → i < b.length → u8 b i < 128) →
      ∃ x, x.repeater_id = u32be b 4 ∧
        fromBytes Homebrew2015.read b = .ok ⟨"RPTC".toList, some (.typeRepeaterConfigurationOrClosing ⟨.typeRepeaterConfiguration x⟩)⟩) := by
  have h4 : u8 b 4 < 0x4C := by unfold u32be at hid; omega
  refine ⟨by omega, fun x hx => ?_, fun hl ha => ?_⟩
  · have := (C32_homebrew_iff b h).mp ⟨x, hx⟩
    omega
  · obtain ⟨x, hx⟩ := (C29_configuration_accept b h (by omega) (by omega)).2.1 hl ha
    exact ⟨x, (C29_configuration b x h hx).2.1, hx⟩

example := C32_homebrew_safe_ids (asc "RPTC" ++ [0, 35, 0, 1] ++ List.replicate 298 0x41) rfl (by decide)

/-- C31: a `DMRD` packet in Mmdvm2020: below 53 bytes EOFError; bit error rate from 54 bytes on, RSSI from 55 on. -/
theorem C31_mmdvm (b : Bytes) (h : b.take 4 = asc "DMRD") :
    fromBytes Mmdvm2020.read b = if b.length < 53 then .error .eof else
      .ok { command_prefix := "DMRD".toList
            command_data := some (.typeDmrData
              { sequence_no := u8 b 4
                source_id := u24be b 5
                target_id := u24be b 8
                repeater_id := u32be b 11
                slot_no := resolveEnum _ (u8 b 15 / 128)
                call_type := resolveEnum _ (u8 b 15 / 64 % 2)
                frame_type := resolveEnum _ (u8 b 15 / 16 % 4)
                data_type := u8 b 15 % 16
                stream_id := u32be b 16
                dmr_data := slice b 20 33
                bit_error_rate := if 54 ≤ b.length then some (u8 b 53) else none
                rssi := if 55 ≤ b.length then some (u8 b 54) else none }) } := by
  rw [Mmdvm2020.of_prefix b "DMRD" h rfl (by decide),
    show Mmdvm2020.bodySpec "DMRD".toList b 4 = (Mmdvm2020.TypeDmrData.spec b 4).as fun x => some (.typeDmrData x) from rfl, map_as]
  unfold Mmdvm2020.TypeDmrData.spec upTo optPart whole
  by_cases h1 : b.length < 53
  · have h1' : ¬ (4 + 49 ≤ b.length) := by omega
    rw [if_pos h1, if_neg h1']; rfl
  have h1' : 4 + 49 ≤ b.length := by omega
  have h2 := u8_lt b 15
  have e1 : bitsAt b (8 * 4 + 8) 24 = u24be b 5 := bitsAt_24 b 5 (by omega)
  have e2 : bitsAt b (8 * 4 + 32) 24 = u24be b 8 := bitsAt_24 b 8 (by omega)
  have e3 : bitsAt b (8 * 4 + 88) 1 = u8 b 15 / 128 := by
    rw [show 8 * 4 + 88 = 8 * 15 + 0 from rfl, bitsAt_byte b 15 0 1 (by omega) (by omega)]; norm_num; omega
  have e4 : bitsAt b (8 * 4 + 89) 1 = u8 b 15 / 64 % 2 := by
    rw [show 8 * 4 + 89 = 8 * 15 + 1 from rfl, bitsAt_byte b 15 1 1 (by omega) (by omega)]; norm_num
  have e5 : bitsAt b (8 * 4 + 90) 2 = u8 b 15 / 16 % 4 := by
    rw [show 8 * 4 + 90 = 8 * 15 + 2 from rfl, bitsAt_byte b 15 2 2 (by omega) (by omega)]; norm_num
  have e6 : bitsAt b (8 * 4 + 92) 4 = u8 b 15 % 16 := by
    rw [show 8 * 4 + 92 = 8 * 15 + 4 from rfl, bitsAt_byte b 15 4 4 (by omega) (by omega)]; norm_num
  simp only [e1, e2, e3, e4, e5, e6]
  rw [if_neg h1, if_pos h1']
  by_cases h3 : 54 ≤ b.length
  · have h3' : 4 + 49 < b.length := by omega
    have h3'' : 4 + 49 + 1 ≤ b.length := by omega
    rw [if_pos h3', if_pos h3'', Parsed.as, next, if_pos h3'', if_pos h3]
    by_cases h4 : 55 ≤ b.length
    · have h4' : 4 + 49 + 1 < b.length := by omega
      have h4'' : 4 + 49 + 1 + 1 ≤ b.length := by omega
      simp only [if_pos h4', if_pos h4'', Parsed.as, next, if_pos h4]; rfl
    · have h4' : ¬ (4 + 49 + 1 < b.length) := by omega
      rw [if_neg h4', next, if_pos h3'', if_neg h4]; rfl
  · have h3' : ¬ (4 + 49 < b.length) := by omega
    have h4 : ¬ (55 ≤ b.length) := by omega
    simp only [if_neg h3', next, if_pos h1', if_neg h3, if_neg h4]; rfl

example : fromBytes Mmdvm2020.read (asc "DMRD" ++ List.replicate 50 7) = .ok ⟨"DMRD".toList, some (.typeDmrData ⟨7, 0x070707, 0x070707, 0x07070707, resolveEnum _ 0, resolveEnum _ 0, resolveEnum _ 0, 7, 0x07070707, List.replicate 33 7, some 7, none⟩)⟩ := by
  rw [C31_mmdvm _ rfl]; decide +kernel

theorem Mmdvm2020.rptc (b : Bytes) (h : b.take 4 = asc "RPTC") : fromBytes Mmdvm2020.read b =
    (Mmdvm2020.TypeRepeaterConfigurationOrClosing.spec b 4).map fun d =>
      ⟨"RPTC".toList, some (.typeRepeaterConfigurationOrClosing d.1)⟩ := by
  rw [Mmdvm2020.of_prefix b "RPTC" h rfl (by decide),
    show Mmdvm2020.bodySpec "RPTC".toList b 4 = (Mmdvm2020.TypeRepeaterConfigurationOrClosing.spec b 4).as fun x => some (.typeRepeaterConfigurationOrClosing x) from rfl, map_as]

/-- C32 (Mmdvm2020): an `RPTC` packet whose fifth byte is `L` is always taken as closing, with the id in the 4 bytes after it. -/
theorem C32_mmdvm_closing (b : Bytes) (h : b.take 4 = asc "RPTC") (hL : u8 b 4 = 0x4C) :
    fromBytes Mmdvm2020.read b = if b.length < 9 then .error .eof else
      .ok ⟨"RPTC".toList, some (.typeRepeaterConfigurationOrClosing
        ⟨.typeRepeaterClosing { magic := asc "L", repeater_id := u32be b 5 }⟩)⟩ := by
  have h5 : ¬ 128 ≤ u8 b 4 := by omega
  rw [Mmdvm2020.rptc b h, Mmdvm2020.TypeRepeaterConfigurationOrClosing.spec, if_neg h5, if_pos hL, upTo]
  by_cases hl : b.length < 5
  · have hl' : ¬ 5 ≤ b.length := by omega
    have h9 : b.length < 9 := by omega
    rw [if_neg hl', if_pos h9]; rfl
  have hl' : 5 ≤ b.length := by omega
  rw [if_pos hl', map_as, Mmdvm2020.TypeRepeaterClosing.spec]
  rw [magicThenId_eq [0x4c] _ _ b _ (fun n => ⟨"RPTC".toList, some (.typeRepeaterConfigurationOrClosing
        ⟨.typeRepeaterClosing { magic := asc "L", repeater_id := n }⟩)⟩) (fun _ _ => rfl), fixedThenNumber]
  have hs := (slice_one_eq b 4 0x4C (by omega)).mpr hL
  simp only [List.length_cons, List.length_nil, Nat.zero_add, Nat.reduceAdd, hs, ne_eq, not_true, if_false, hl]

example : fromBytes Mmdvm2020.read (asc "RPTCL" ++ [0, 35, 0, 1]) =
    .ok ⟨"RPTC".toList, some (.typeRepeaterConfigurationOrClosing ⟨.typeRepeaterClosing ⟨asc "L", 0x230001⟩⟩)⟩ := by
  rw [C32_mmdvm_closing _ rfl (by decide)]; decide

/-- C32 (Mmdvm2020): an `RPTC` packet is taken as closing iff its fifth byte is `L` (and the 4 byte id is complete). -/
theorem C32_mmdvm_iff (b : Bytes) (h : b.take 4 = asc "RPTC") :
    (∃ x, fromBytes Mmdvm2020.read b = .ok ⟨"RPTC".toList, some (.typeRepeaterConfigurationOrClosing ⟨.typeRepeaterClosing x⟩)⟩) ↔
      9 ≤ b.length ∧ u8 b 4 = 0x4C := by
  by_cases hL : u8 b 4 = 0x4C
  · rw [C32_mmdvm_closing b h hL]
    by_cases hl : b.length < 9
    · rw [if_pos hl]
      exact ⟨fun ⟨_, hx⟩ => (by cases hx), fun hx => absurd hx.1 (by omega)⟩
    · rw [if_neg hl]
      exact ⟨fun _ => ⟨by omega, hL⟩, fun _ => ⟨_, rfl⟩⟩
  · refine ⟨fun ⟨x, hx⟩ => ?_, fun hx => absurd hx.2 hL⟩
    rw [Mmdvm2020.rptc b h, Mmdvm2020.TypeRepeaterConfigurationOrClosing.spec, if_neg hL, upTo] at hx
    split at hx
    · split at hx
      · cases hx
      · rcases hd : Mmdvm2020.TypeRepeaterConfiguration.spec b 4 with e | ⟨d, e⟩ <;> rw [hd] at hx <;> cases hx
    · cases hx

example := C32_mmdvm_iff (asc "RPTC" ++ [0x4C, 35, 0, 1, 2]) rfl

/-- C32 (Mmdvm2020): a fifth byte of 80 or more raises UnicodeDecodeError, whatever follows. -/
theorem C32_mmdvm_high (b : Bytes) (h : b.take 4 = asc "RPTC") (hl : 5 ≤ b.length) (hH : 128 ≤ u8 b 4) :
    fromBytes Mmdvm2020.read b = .error .unicode := by
  rw [Mmdvm2020.rptc b h, Mmdvm2020.TypeRepeaterConfigurationOrClosing.spec, upTo, if_pos hl, if_pos hH]; rfl

/-- Repeater 2156068865, which is too big for a DMR number. -/
example := C32_mmdvm_high (asc "RPTC" ++ [0x80, 0x82, 0xFC, 1] ++ List.replicate 298 0x41) rfl (by decide +kernel) (by decide)

/-- C32 (Mmdvm2020): a configuration whose id is at most 999999999 is decoded as a configuration (given that its text is
ASCII and complete) and with that id, and never as closing, nor does it fail because of its fifth byte. -/
theorem C32_mmdvm_safe_ids (b : Bytes) (h : b.take 4 = asc "RPTC") (hid : u32be b 4 ≤ 999999999) :
    u8 b 4 < 128 ∧
    (∀ x, fromBytes Mmdvm2020.read b ≠ .ok ⟨"RPTC".toList, some (.typeRepeaterConfigurationOrClosing ⟨.typeRepeaterClosing x⟩)⟩) ∧
    (302 ≤ b.length → (∀ i, 8 ≤ i → i < b.length → u8 b i < 128) →
      ∃ x, x.repeater_id = u32be b 4 ∧
        fromBytes Mmdvm2020.read b = .ok ⟨"RPTC".toList, some (.typeRepeaterConfigurationOrClosing ⟨.typeRepeaterConfiguration x⟩)⟩) := by
  have h4 : u8 b 4 < 0x4C := by unfold u32be at hid; omega
  refine ⟨by omega, fun x hx => ?_, fun hl ha => ?_⟩
  · have := (C32_mmdvm_iff b h).mp ⟨x, hx⟩
    omega
  · obtain ⟨x, hx⟩ := (C30_configuration_accept b h (by omega) (by omega)).2.1 hl ha
    exact ⟨x, (C30_configuration b x h hx).2.1, hx⟩

example := C32_mmdvm_safe_ids (asc "RPTC" ++ [0, 35, 0, 1] ++ List.replicate 298 0x41) rfl (by decide)

/-- What a DMRD packet says, with enumerations as integers, so that the two dialects can be compared. -/
structure DmrdView where
  sequence_no : Nat
  source_id : Nat
  target_id : Nat
  repeater_id : Nat
  slot_no : Nat
  call_type : Nat
  frame_type : Nat
  data_type : Nat
  stream_id : Nat
  dmr_data : Bytes
  bit_error_rate : Option Nat
  rssi : Option Nat

/-- View of a Homebrew 2015 DMRD body. -/
def Homebrew2015.view (x : Homebrew2015) : Option DmrdView :=
  match x.command_data with
  | some (.typeDmrData d) => some ⟨d.sequence_no, d.source_id, d.target_id, d.repeater_id, d.slot_no.toInt, d.call_type.toInt,
      d.frame_type.toInt, d.data_type, d.stream_id, d.dmr_data, d.bit_error_rate, d.rssi⟩
  | _ => none
/-- View of an MMDVM 2020 DMRD body. -/
def Mmdvm2020.view (x : Mmdvm2020) : Option DmrdView :=
  match x.command_data with
  | some (.typeDmrData d) => some ⟨d.sequence_no, d.source_id, d.target_id, d.repeater_id, d.slot_no.toInt, d.call_type.toInt,
      d.frame_type.toInt, d.data_type, d.stream_id, d.dmr_data, d.bit_error_rate, d.rssi⟩
  | _ => none

/-- C31: the two dialects decode (or reject) every DMRD packet identically. -/
theorem C31_same (b : Bytes) (h : b.take 4 = asc "DMRD") :
    (fromBytes Homebrew2015.read b).map Homebrew2015.view = (fromBytes Mmdvm2020.read b).map Mmdvm2020.view := by
  rw [C31_homebrew b h, C31_mmdvm b h]
  by_cases hl : b.length < 53
  · rw [if_pos hl, if_pos hl]; rfl
  · rw [if_neg hl, if_neg hl]
    simp only [Except.map, Homebrew2015.view, Mmdvm2020.view, toInt_resolveEnum]

example := C31_same (asc "DMRD" ++ List.replicate 51 7) rfl

/-- Non-trivial instances of the hypotheses: an MSTACK packet with a random number, a DMRD packet of 54 bytes, a
closing packet. -/
example : (asc "MSTACK" ++ [0, 1, 2, 3, 9, 9, 9, 9]).take 4 = asc "MSTA" ∧
    fromBytes Homebrew2015.read (asc "MSTACK" ++ [0, 1, 2, 3, 9, 9, 9, 9]) =
      .ok ⟨"MSTA".toList, some (.typeMasterRepeaterAck ⟨asc "CK", 0x010203, some 0x09090909⟩)⟩ := by
  refine ⟨rfl, ?_⟩
  rw [C29_master_repeater_ack _ rfl]
  decide
example : (asc "DMRD" ++ List.replicate 50 7).take 4 = asc "DMRD" ∧
    ¬ (asc "DMRD" ++ List.replicate 50 7).length < 53 ∧ 54 ≤ (asc "DMRD" ++ List.replicate 50 7).length := by decide
example : (asc "RPTC" ++ [0, 0x23, 0, 1]).take 4 = asc "RPTC" ∧ u32be (asc "RPTC" ++ [0, 0x23, 0, 1]) 4 ≤ 999999999 := by decide
example : fromBytes Mmdvm2020.read (asc "RPTCL" ++ [0, 0x23, 0, 1]) =
    .ok ⟨"RPTC".toList, some (.typeRepeaterConfigurationOrClosing ⟨.typeRepeaterClosing ⟨asc "L", 2293761⟩⟩)⟩ := by
  rw [C32_mmdvm_closing _ rfl rfl]; decide
example : Homebrew2015.commands.lookup "RPTO".toList = none := by decide
example : fromBytes Homebrew2015.read [0xFF, 0, 0, 0] = .error .unicode :=
  (C29_dispatch _).2.1 (by decide) fun s hs => by
    have := (decodeUtf8_iff _ s).mpr hs
    exact absurd this (by rw [show decodeUtf8 (List.take 4 ([0xFF, 0, 0, 0] : Bytes)) = none from by decide]; simp)

end Dmr.Homebrew
