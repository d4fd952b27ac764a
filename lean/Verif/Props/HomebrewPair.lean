import Verif.Props.HomebrewMessages
import Verif.Props.SourceObjects
/-
C72: the two Homebrew decoders, on the same bytes.
-/
set_option autoImplicit false
set_option linter.unusedSimpArgs false

namespace Dmr.Homebrew

open Spec

/-- What a command of 2015 is for an MMDVM host: the same attributes with the same values; the last character of the description of a repeater says which
slots it uses. The acknowledgement, the ping and the pong of 2015 are nothing there. -/
def newer : Homebrew2015.CommandDataUnion → Option Mmdvm2020.CommandDataUnion
  | .typeRepeaterLoginRequest x => some (.typeRepeaterLoginRequest { repeater_id := x.repeater_id })
  | .typeRepeaterLoginResponse x => some (.typeRepeaterLoginResponse { repeater_id := x.repeater_id, sha256 := x.sha256 })
  | .typeRepeaterConfigurationOrClosing ⟨.typeRepeaterClosing x⟩ =>
    some (.typeRepeaterConfigurationOrClosing ⟨.typeRepeaterClosing { magic := x.magic, repeater_id := x.repeater_id }⟩)
  | .typeRepeaterConfigurationOrClosing ⟨.typeRepeaterConfiguration x⟩ =>
    some (.typeRepeaterConfigurationOrClosing ⟨.typeRepeaterConfiguration
      { repeater_id := x.repeater_id
        call_sign := x.call_sign
        rx_freq := x.rx_freq
        tx_freq := x.tx_freq
        tx_power := x.tx_power
        color_code := x.color_code
        latitude := x.latitude
        longitude := x.longitude
        antenna_height_above_ground := x.antenna_height_above_ground
        location := x.location
        description := x.description.take 19
        slots := x.description.drop 19
        url := x.url
        software_id := x.software_id
        package_id := x.package_id
        unparsed_data := x.unparsed_data }⟩)
  | .typeDmrData x =>
    some (.typeDmrData
      { sequence_no := x.sequence_no
        source_id := x.source_id
        target_id := x.target_id
        repeater_id := x.repeater_id
        slot_no := resolveEnum _ x.slot_no.toInt
        call_type := resolveEnum _ x.call_type.toInt
        frame_type := resolveEnum _ x.frame_type.toInt
        data_type := x.data_type
        stream_id := x.stream_id
        dmr_data := x.dmr_data
        bit_error_rate := x.bit_error_rate
        rssi := x.rssi })
  | .typeMasterClosing x => some (.typeMasterClosing { magic := x.magic, repeater_id := x.repeater_id })
  | .typeMasterNotAccept x => some (.typeMasterNotAccept { magic := x.magic, repeater_id := x.repeater_id })
  | .typeMasterRepeaterAck _ => none
  | .typeRepeaterPong _ => none
  | .typeMasterPing _ => none

/-- The commands that both know. -/
def sharedCommands : List String := ["RPTL", "RPTK", "RPTC", "DMRD", "MSTC", "MSTN"]

/-! ### The prefix -/

theorem lookup_mem {α β : Type} [BEq α] [LawfulBEq α] {a : α} {v : β} : ∀ {l : List (α × β)}, l.lookup a = some v → (a, v) ∈ l
  | [], h => by cases h
  | (a', v') :: l, h => by
    rw [List.lookup_cons] at h
    by_cases e : a = a'
    · subst e
      simp only [beq_self_eq_true] at h
      cases h; exact List.mem_cons_self
    · rw [beq_eq_false_iff_ne.mpr e] at h
      exact List.mem_cons_of_mem _ (lookup_mem h)

/-- A decoded packet with a body: its prefix is the one of the body. -/
theorem old_prefix {b : Bytes} {x : Homebrew2015} (h : fromBytes Homebrew2015.read b = .ok x) {c : Homebrew2015.CommandDataUnion} (hc : x.command_data = some c) :
    (x.command_prefix, Homebrew2015.className c) ∈ Homebrew2015.commands ∧ b.take 4 = encUtf8 x.command_prefix := by
  obtain ⟨_, h2, h3⟩ := (C29_dispatch b).2.2.2 x h
  rw [hc] at h3
  exact ⟨lookup_mem h3.symm, h2.symm⟩

theorem new_prefix {b : Bytes} {y : Mmdvm2020} (h : fromBytes Mmdvm2020.read b = .ok y) {d : Mmdvm2020.CommandDataUnion} (hd : y.command_data = some d) :
    (y.command_prefix, Mmdvm2020.className d) ∈ Mmdvm2020.commands ∧ encAscii y.command_prefix = some (b.take 4) := by
  obtain ⟨_, h2, h3⟩ := (C30_dispatch b).2.2.2 y h
  rw [hd] at h3
  exact ⟨lookup_mem h3.symm, h2⟩

/-- Texts with the same ASCII octets. -/
theorem encAscii_inj {s t : PyStr} {b : Bytes} (hs : encAscii s = some b) (ht : encAscii t = some b) : s = t :=
  Option.some.inj (((decodeAscii_iff b s).mpr hs).symm.trans ((decodeAscii_iff b t).mpr ht))

theorem encAscii_append {s t : PyStr} {b c : Bytes} (hs : encAscii s = some b) (ht : encAscii t = some c) : encAscii (s ++ t) = some (b ++ c) := by
  induction s generalizing b with
  | nil => cases hs; exact ht
  | cons a s ih =>
    rw [encAscii] at hs
    rcases ha : encAsciiChar a with _ | u <;> rw [ha] at hs
    · cases hs
    rcases he : encAscii s with _ | v <;> rw [he] at hs
    · cases hs
    cases hs
    rw [List.cons_append, encAscii, ha, ih he]
    simp

theorem encAscii_length {s : PyStr} {b : Bytes} (hs : encAscii s = some b) : s.length = b.length := by
  induction s generalizing b with
  | nil => cases hs; rfl
  | cons a s ih =>
    rw [encAscii] at hs
    rcases ha : encAsciiChar a with _ | u <;> rw [ha] at hs
    · cases hs
    rcases he : encAscii s with _ | v <;> rw [he] at hs
    · cases hs
    cases hs
    have : u.length = 1 := by
      unfold encAsciiChar at ha
      split at ha
      · cases ha; rfl
      · cases ha
    simp [ih he, this]; omega

/-! ### A configuration -/

/-- The two configurations, for the same octets. -/
theorem configuration_newer {b : Bytes} (h : b.take 4 = asc "RPTC") {x : Homebrew2015.TypeRepeaterConfiguration} {y : Mmdvm2020.TypeRepeaterConfiguration}
    (hx : fromBytes Homebrew2015.read b = .ok ⟨"RPTC".toList, some (.typeRepeaterConfigurationOrClosing ⟨.typeRepeaterConfiguration x⟩)⟩)
    (hy : fromBytes Mmdvm2020.read b = .ok ⟨"RPTC".toList, some (.typeRepeaterConfigurationOrClosing ⟨.typeRepeaterConfiguration y⟩)⟩) :
    newer (.typeRepeaterConfigurationOrClosing ⟨.typeRepeaterConfiguration x⟩) = some (.typeRepeaterConfigurationOrClosing ⟨.typeRepeaterConfiguration y⟩) := by
  have hX := C29_configuration b x h hx
  have hY := C30_configuration b y h hy
  obtain ⟨hl, x1, x2, x3, x4, x5, x6, x7, x8, x9, x10, x11, x12, x13, x14, x15⟩ := hX
  obtain ⟨-, y1, y2, y3, y4, y5, y6, y7, y8, y9, y10, y11, y11', y12, y13, y14, y15⟩ := hY
  have hd : x.description = y.description ++ y.slots := by
    refine encAscii_inj x11 (?_ : encAscii (y.description ++ y.slots) = some (slice b 78 20))
    rw [encAscii_append y11 y11', show (20 : Nat) = 19 + 1 from rfl, ← Hytera.slice_append_slice]
  have hn : y.description.length = 19 := by
    rw [encAscii_length y11, slice, List.length_take, List.length_drop]; omega
  have ht : x.description.take 19 = y.description := by rw [hd, ← hn, List.take_left]
  have hr : x.description.drop 19 = y.slots := by rw [hd, ← hn, List.drop_left]
  obtain ⟨⟩ := y
  dsimp only at *
  rw [newer]
  subst y1
  rw [x1, ht, hr, encAscii_inj x2 y2, encAscii_inj x3 y3, encAscii_inj x4 y4, encAscii_inj x5 y5, encAscii_inj x6 y6, encAscii_inj x7 y7, encAscii_inj x8 y8,
    encAscii_inj x9 y9, encAscii_inj x10 y10, encAscii_inj x12 y12, encAscii_inj x13 y13, encAscii_inj x14 y14, encAscii_inj x15 y15]

/-- A packet that is made of fixed octets and a number: both accept it, or neither does, and for the same reason. -/
theorem fixed_same {b v : Bytes} {path : String} {f : Nat → Homebrew2015} {g : Nat → Mmdvm2020} {p : PyStr} {c : Nat → Homebrew2015.CommandDataUnion}
    {d : Nat → Mmdvm2020.CommandDataUnion} (hf : fromBytes Homebrew2015.read b = fixedThenNumber b v path f)
    (hg : fromBytes Mmdvm2020.read b = fixedThenNumber b v path g) (ef : ∀ n, f n = ⟨p, some (c n)⟩) (eg : ∀ n, g n = ⟨p, some (d n)⟩) (e : ∀ n, newer (c n) = some (d n)) :
    (∃ c d, newer c = some d ∧ fromBytes Homebrew2015.read b = .ok ⟨p, some c⟩ ∧ fromBytes Mmdvm2020.read b = .ok ⟨p, some d⟩) ∨
    ∃ e, fromBytes Homebrew2015.read b = .error e ∧ fromBytes Mmdvm2020.read b = .error e := by
  unfold fixedThenNumber at hf hg
  split at hf
  · next h1 => rw [if_pos h1] at hg; exact .inr ⟨_, hf, hg⟩
  next h1 =>
  rw [if_neg h1] at hg
  split at hf
  · next h2 => rw [if_pos h2] at hg; exact .inr ⟨_, hf, hg⟩
  next h2 =>
  rw [if_neg h2] at hg
  split at hf
  · next h3 => rw [if_pos h3] at hg; exact .inr ⟨_, hf, hg⟩
  next h3 =>
  rw [if_neg h3] at hg
  exact .inl ⟨_, _, e _, hf.trans (congrArg _ (ef _)), hg.trans (congrArg _ (eg _))⟩

/-- The same, for one that has a length. -/
theorem sized_same {b : Bytes} {k : Nat} {x : Homebrew2015} {y : Mmdvm2020} {p : PyStr} {c : Homebrew2015.CommandDataUnion} {d : Mmdvm2020.CommandDataUnion}
    (hf : fromBytes Homebrew2015.read b = if b.length < k then .error .eof else .ok x)
    (hg : fromBytes Mmdvm2020.read b = if b.length < k then .error .eof else .ok y) (ef : x = ⟨p, some c⟩) (eg : y = ⟨p, some d⟩) (e : newer c = some d) :
    (∃ c d, newer c = some d ∧ fromBytes Homebrew2015.read b = .ok ⟨p, some c⟩ ∧ fromBytes Mmdvm2020.read b = .ok ⟨p, some d⟩) ∨
    ∃ e, fromBytes Homebrew2015.read b = .error e ∧ fromBytes Mmdvm2020.read b = .error e := by
  split at hf
  · next h1 => rw [if_pos h1] at hg; exact .inr ⟨_, hf, hg⟩
  · next h1 => rw [if_neg h1] at hg; exact .inl ⟨_, _, e, hf.trans (congrArg _ ef), hg.trans (congrArg _ eg)⟩

/-- **C72.** On a packet with a command that both know, except `RPTC`: both decoders return, with the same prefix and bodies that mean the same, or both raise
the same exception. -/
theorem C72_same (b : Bytes) (s : String) (hs : s ∈ sharedCommands) (hn : s ≠ "RPTC") (h : b.take 4 = asc s) :
    (∃ c d, newer c = some d ∧ fromBytes Homebrew2015.read b = .ok ⟨s.toList, some c⟩ ∧ fromBytes Mmdvm2020.read b = .ok ⟨s.toList, some d⟩) ∨
    ∃ e, fromBytes Homebrew2015.read b = .error e ∧ fromBytes Mmdvm2020.read b = .error e := by
  simp only [sharedCommands, List.mem_cons, List.not_mem_nil, or_false] at hs
  rcases hs with rfl | rfl | rfl | rfl | rfl | rfl
  · exact sized_same (C29_login b h) (C30_login b h) rfl rfl rfl
  · exact sized_same (C29_login_response b h) (C30_login_response b h) rfl rfl rfl
  · exact absurd rfl hn
  · exact sized_same (C31_homebrew b h) (C31_mmdvm b h) rfl rfl (by simp only [newer, toInt_resolveEnum])
  · exact fixed_same (C29_master_closing b h) (C30_master_closing b h) (fun _ => rfl) (fun _ => rfl) (fun _ => rfl)
  · exact fixed_same (C29_master_not_accept b h) (C30_master_not_accept b h) (fun _ => rfl) (fun _ => rfl) (fun _ => rfl)

/-- **C72.** The same of `RPTC`, a configuration or a closing; but if both raise, it need not be the same exception. -/
theorem C72_configuration (b : Bytes) (h : b.take 4 = asc "RPTC") :
    (∃ c d, newer c = some d ∧ fromBytes Homebrew2015.read b = .ok ⟨"RPTC".toList, some c⟩ ∧ fromBytes Mmdvm2020.read b = .ok ⟨"RPTC".toList, some d⟩) ∨
    ∃ e e', fromBytes Homebrew2015.read b = .error e ∧ fromBytes Mmdvm2020.read b = .error e' ∧ e ∈ [.eof, .unicode] ∧ e' ∈ [.eof, .unicode] := by
  by_cases h5 : 5 ≤ b.length
  · by_cases hL : u8 b 4 = 0x4C
    · have hf := C32_homebrew_closing b h hL
      have hg := C32_mmdvm_closing b h hL
      rcases sized_same hf hg rfl rfl rfl with h | ⟨e, h1, h2⟩
      · exact .inl h
      · split at hf
        · cases h1.symm.trans hf
          exact .inr ⟨_, _, h1, h2, by simp, by simp⟩
        · cases h1.symm.trans hf
    by_cases hH : 128 ≤ u8 b 4
    · exact .inr ⟨_, _, C32_homebrew_high b h h5 hH, C32_mmdvm_high b h h5 hH, by simp, by simp⟩
    obtain ⟨a1, a2, a3⟩ := C29_configuration_accept b h (by omega) hL
    obtain ⟨b1, b2, b3⟩ := C30_configuration_accept b h (by omega) hL
    by_cases hl : b.length < 302
    · rcases a1 hl with a | a <;> rcases b1 hl with c | c <;> exact .inr ⟨_, _, a, c, by simp, by simp⟩
    by_cases ha : ∃ i, 8 ≤ i ∧ i < b.length ∧ 128 ≤ u8 b i
    · exact .inr ⟨_, _, a3 (by omega) ha, b3 (by omega) ha, by simp, by simp⟩
    have ha' : ∀ i, 8 ≤ i → i < b.length → u8 b i < 128 := fun i h1 h2 => by
      by_cases hi : u8 b i < 128
      · exact hi
      · exact absurd ⟨i, h1, h2, by omega⟩ ha
    obtain ⟨x, hx⟩ := a2 (by omega) ha'
    obtain ⟨y, hy⟩ := b2 (by omega) ha'
    exact .inl ⟨_, _, configuration_newer h hx hy, hx, hy⟩
  · have h4 : u8 b 4 = 0 := by unfold u8; simp [List.getElem?_eq_none (show b.length ≤ 4 by omega)]
    rcases (C29_configuration_accept b h (by omega) (by omega)).1 (by omega) with a | a <;>
      rcases (C30_configuration_accept b h (by omega) (by omega)).1 (by omega) with c | c <;> exact .inr ⟨_, _, a, c, by simp, by simp⟩

/-- **C72.** Ping and pong go the other way round: no packet is one for both. -/
theorem C72_ping (b : Bytes) (h : b.take 4 = asc "RPTP" ∨ b.take 4 = asc "MSTP") :
    (∃ e, fromBytes Homebrew2015.read b = .error e) ∨ ∃ e, fromBytes Mmdvm2020.read b = .error e := by
  have key : ∀ (v w : Bytes) (p q : String) (f : Nat → Homebrew2015) (g : Nat → Mmdvm2020), v.length = w.length → v ≠ w → fromBytes Homebrew2015.read b = fixedThenNumber b v p f →
      fromBytes Mmdvm2020.read b = fixedThenNumber b w q g → (∃ e, fromBytes Homebrew2015.read b = .error e) ∨ ∃ e, fromBytes Mmdvm2020.read b = .error e := by
    intro v w p q f g hvw hne hf hg
    unfold fixedThenNumber at hf hg
    by_cases h1 : b.length < 4 + v.length
    · rw [if_pos h1] at hf; exact .inl ⟨_, hf⟩
    rw [if_neg h1] at hf
    by_cases h2 : slice b 4 v.length = v
    · rw [if_neg (by omega), if_pos (by rw [← hvw, h2]; exact hne)] at hg
      exact .inr ⟨_, hg⟩
    · rw [if_pos h2] at hf
      exact .inl ⟨_, hf⟩
  rcases h with h | h
  · exact key (asc "ONG") (asc "ING") _ _ _ _ rfl (by decide) (C29_repeater_pong b h) (C30_repeater_ping b h)
  · exact key (asc "ING") (asc "ONG") _ _ _ _ rfl (by decide) (C29_master_ping b h) (C30_master_pong b h)

/-- **C72.** What only one of them knows is accepted by the other one, without a body. -/
theorem C72_only (b : Bytes) :
    (b.take 4 = asc "MSTA" → fromBytes Mmdvm2020.read b = .ok ⟨"MSTA".toList, none⟩) ∧
    ∀ s ∈ ["RPTA", "DMRG", "DMRA", "RPTO", "RPTS"], b.take 4 = asc s → fromBytes Homebrew2015.read b = .ok ⟨s.toList, none⟩ := by
  have len : ∀ s : String, (asc s).length = 4 → b.take 4 = asc s → 4 ≤ b.length := fun s hs h => by
    have := congrArg List.length h
    rw [hs, List.length_take] at this; omega
  refine ⟨fun h => (C30_dispatch b).2.2.1 _ (len _ rfl h) (h ▸ by decide) (by decide), fun s hs h => ?_⟩
  simp only [List.mem_cons, List.not_mem_nil, or_false] at hs
  rcases hs with rfl | rfl | rfl | rfl | rfl <;> exact (C29_dispatch b).2.2.1 _ (len _ rfl h) (h ▸ by decide) (by decide)

/-- **C72.** If both give a body, then they have the same prefix and mean the same. -/
theorem C72_agree (b : Bytes) (x : Homebrew2015) (y : Mmdvm2020) (hx : fromBytes Homebrew2015.read b = .ok x) (hy : fromBytes Mmdvm2020.read b = .ok y)
    (c : Homebrew2015.CommandDataUnion) (d : Mmdvm2020.CommandDataUnion) (hc : x.command_data = some c) (hd : y.command_data = some d) :
    x.command_prefix = y.command_prefix ∧ newer c = some d := by
  obtain ⟨h1, h2⟩ := old_prefix hx hc
  have same : ∀ s ∈ sharedCommands, b.take 4 = asc s → x.command_prefix = y.command_prefix ∧ newer c = some d := fun s hs h => by
    have : (∃ c d, newer c = some d ∧ fromBytes Homebrew2015.read b = .ok ⟨s.toList, some c⟩ ∧ fromBytes Mmdvm2020.read b = .ok ⟨s.toList, some d⟩) ∨
        ∃ e, fromBytes Homebrew2015.read b = .error e := by
      by_cases hn : s = "RPTC"
      · subst hn
        rcases C72_configuration b h with h | ⟨e, _, h, -⟩
        · exact .inl h
        · exact .inr ⟨e, h⟩
      · rcases C72_same b s hs hn h with h | ⟨e, h, -⟩
        · exact .inl h
        · exact .inr ⟨e, h⟩
    rcases this with ⟨c', d', hcd, h3, h4⟩ | ⟨e, h3⟩
    · cases hx.symm.trans h3
      cases hy.symm.trans h4
      cases hc; cases hd
      exact ⟨rfl, hcd⟩
    · cases hx.symm.trans h3
  have ping : b.take 4 = asc "RPTP" ∨ b.take 4 = asc "MSTP" → x.command_prefix = y.command_prefix ∧ newer c = some d := fun h => by
    rcases C72_ping b h with ⟨e, h3⟩ | ⟨e, h3⟩
    · cases hx.symm.trans h3
    · cases hy.symm.trans h3
  have hp : x.command_prefix ∈ Homebrew2015.commands.map Prod.fst := List.mem_map_of_mem (f := Prod.fst) h1
  simp only [Homebrew2015.commands, List.map_cons, List.map_nil, List.mem_cons, List.not_mem_nil, or_false] at hp
  rcases hp with e | e | e | e | e | e | e | e | e <;> rw [e] at h2
  · exact same "RPTL" (by simp [sharedCommands]) h2
  · have := hy.symm.trans ((C72_only b).1 h2)
    cases this; cases hd
  · exact same "RPTK" (by simp [sharedCommands]) h2
  · exact same "RPTC" (by simp [sharedCommands]) h2
  · exact same "DMRD" (by simp [sharedCommands]) h2
  · exact same "MSTC" (by simp [sharedCommands]) h2
  · exact ping (.inl h2)
  · exact ping (.inr h2)
  · exact same "MSTN" (by simp [sharedCommands]) h2

/-- **C72.** And so the source of the two classes, run statement by statement: if both `from_bytes(b)` return objects with a body, these mean the same; and on a
packet with a command that both know, one returns exactly if the other one does. -/
theorem C72_source (b : Bytes) :
    (∀ (x : Homebrew2015) (y : Mmdvm2020) (c : Homebrew2015.CommandDataUnion) (d : Mmdvm2020.CommandDataUnion), Py.Gives "Homebrew.Homebrew2015" b x.toPy →
      Py.Gives "Homebrew.Mmdvm2020" b y.toPy → x.command_data = some c → y.command_data = some d → x.command_prefix = y.command_prefix ∧ newer c = some d) ∧
    ∀ s ∈ sharedCommands, b.take 4 = asc s → ∀ y : Mmdvm2020, Py.Gives "Homebrew.Mmdvm2020" b y.toPy ↔
      ∃ c d, newer c = some d ∧ y = ⟨s.toList, some d⟩ ∧ Py.Gives "Homebrew.Homebrew2015" b (Homebrew2015.toPy ⟨s.toList, some c⟩) := by
  have H := C64_gives "Homebrew.Homebrew2015" ⟨_, Homebrew2015.read, Homebrew2015.toPy⟩ (List.mem_of_getElem? (i := 116) rfl) b
  have M := C64_gives "Homebrew.Mmdvm2020" ⟨_, Mmdvm2020.read, Mmdvm2020.toPy⟩ (List.mem_of_getElem? (i := 133) rfl) b
  refine ⟨fun x y c d hx hy => C72_agree b x y ((H x).mp hx) ((M y).mp hy) c d, fun s hs h y => ?_⟩
  have both : (∃ c d, newer c = some d ∧ fromBytes Homebrew2015.read b = .ok ⟨s.toList, some c⟩ ∧ fromBytes Mmdvm2020.read b = .ok ⟨s.toList, some d⟩) ∨
      ∃ e e', fromBytes Homebrew2015.read b = .error e ∧ fromBytes Mmdvm2020.read b = .error e' := by
    by_cases hn : s = "RPTC"
    · subst hn
      rcases C72_configuration b h with h | ⟨e, e', h, h', -⟩
      · exact .inl h
      · exact .inr ⟨e, e', h, h'⟩
    · rcases C72_same b s hs hn h with h | ⟨e, h, h'⟩
      · exact .inl h
      · exact .inr ⟨e, e, h, h'⟩
  constructor
  · intro hy
    have hy := (M y).mp hy
    rcases both with ⟨c, d, e, h1, h2⟩ | ⟨e, e', h1, h2⟩
    · exact ⟨c, d, e, Except.ok.inj (hy.symm.trans h2), (H _).mpr h1⟩
    · cases hy.symm.trans h2
  · rintro ⟨c, d, e, rfl, hx⟩
    have hx := (H _).mp hx
    rcases both with ⟨c', d', e', h1, h2⟩ | ⟨e, e', h1, h2⟩
    · cases hx.symm.trans h1
      cases e.symm.trans e'
      exact (M _).mpr h2
    · cases hx.symm.trans h1

/-- A refusal: both know it. -/
example : ∃ c d, newer c = some d ∧ fromBytes Homebrew2015.read (asc "MSTNAK" ++ [0, 1, 2, 3]) = .ok ⟨"MSTN".toList, some c⟩ ∧
    fromBytes Mmdvm2020.read (asc "MSTNAK" ++ [0, 1, 2, 3]) = .ok ⟨"MSTN".toList, some d⟩ :=
  ⟨.typeMasterNotAccept ⟨asc "AK", 66051⟩, .typeMasterNotAccept ⟨asc "AK", 66051⟩, rfl, by decide +kernel, by decide +kernel⟩

/-- The number of a repeater that is cut short: the same exception. -/
example : fromBytes Homebrew2015.read (asc "RPTL" ++ [0, 1]) = .error .eof ∧ fromBytes Mmdvm2020.read (asc "RPTL" ++ [0, 1]) = .error .eof := by decide +kernel

/-- A configuration that ends inside the description, which is not ASCII: not the same exception. -/
example : fromBytes Homebrew2015.read (asc "RPTC" ++ [0, 1, 2, 3] ++ List.replicate 70 65 ++ List.replicate 19 200) = .error .eof ∧
    fromBytes Mmdvm2020.read (asc "RPTC" ++ [0, 1, 2, 3] ++ List.replicate 70 65 ++ List.replicate 19 200) = .error .unicode := by decide +kernel

/-- A configuration. -/
example : ∃ c d, newer c = some d ∧
    fromBytes Homebrew2015.read (asc "RPTC" ++ [0, 1, 2, 3] ++ List.replicate 294 65) = .ok ⟨"RPTC".toList, some c⟩ ∧
    fromBytes Mmdvm2020.read (asc "RPTC" ++ [0, 1, 2, 3] ++ List.replicate 294 65) = .ok ⟨"RPTC".toList, some d⟩ := by
  rcases C72_configuration (asc "RPTC" ++ [0, 1, 2, 3] ++ List.replicate 294 65) (by decide +kernel) with h | ⟨e, _, h, -⟩
  · exact h
  · obtain ⟨x, hx⟩ := (C29_configuration_accept (asc "RPTC" ++ [0, 1, 2, 3] ++ List.replicate 294 65) (by decide +kernel) (by decide +kernel) (by decide +kernel)).2.1
      (by decide +kernel) (by decide +kernel)
    cases h.symm.trans hx

end Dmr.Homebrew
