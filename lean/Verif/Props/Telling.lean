import Verif.Props.SourceObjects
import Verif.Props.HyteraTransport
import Verif.Props.HomebrewPair
import Verif.Props.HyteraMessages2
/-
C73: which classes accept the same packets.
-/
set_option autoImplicit false
set_option linter.unusedSimpArgs false

namespace Dmr

open Py Spec

/-- Running `cls.from_bytes(b)` returns an object. -/
def Py.Accepts (cls : String) (b : Bytes) : Prop := ∃ tree, Py.Gives cls b tree

/-- The classes that a receiver uses for what comes out of a socket: those of the commands, RTP and the heartbeat of IP Site Connect. -/
def datagrams : List String :=
  ["Motorola.AutomaticRegistrationService",
   "Motorola.TextMessageProtocol",
   "Hytera.RadioRegistrationService",
   "Hytera.TextMessageProtocol",
   "Hytera.IpSiteConnectProtocol",
   "Hytera.RadioControlProtocol",
   "Hytera.DataDeliveryStates",
   "Hytera.HyteraDmrApplicationProtocol",
   "Hytera.HyteraRadioNetworkProtocol",
   "Hytera.HyteraSimpleTransportReliabilityProtocol",
   "Hytera.LocationProtocol",
   "Hytera.DataTransmitProtocol",
   "Hytera.TelemetryProtocol",
   "Homebrew.Homebrew2015",
   "Homebrew.Mmdvm2020",
   "Hytera.RealTimeTransportProtocol",
   "Hytera.IpSiteConnectHeartbeat"]

/-- The classes whose packets can be told apart. -/
def apart : List (String × String) :=
  [("Hytera.RadioRegistrationService", "Hytera.HyteraRadioNetworkProtocol"),
   ("Hytera.RadioRegistrationService", "Hytera.HyteraSimpleTransportReliabilityProtocol"),
   ("Hytera.RadioRegistrationService", "Hytera.RealTimeTransportProtocol"),
   ("Hytera.HyteraRadioNetworkProtocol", "Hytera.HyteraSimpleTransportReliabilityProtocol"),
   ("Hytera.HyteraRadioNetworkProtocol", "Hytera.RealTimeTransportProtocol"),
   ("Hytera.HyteraSimpleTransportReliabilityProtocol", "Hytera.RealTimeTransportProtocol"),
   ("Homebrew.Homebrew2015", "Hytera.RealTimeTransportProtocol"),
   ("Homebrew.Mmdvm2020", "Hytera.RealTimeTransportProtocol")]

/-- Their models. -/
def datagramReaders : List (String × Reader) :=
  [("Motorola.AutomaticRegistrationService", ⟨_, Motorola.AutomaticRegistrationService.read, Motorola.AutomaticRegistrationService.toPy⟩),
   ("Motorola.TextMessageProtocol", ⟨_, Motorola.TextMessageProtocol.read, Motorola.TextMessageProtocol.toPy⟩),
   ("Hytera.RadioRegistrationService", ⟨_, Hytera.RadioRegistrationService.read, Hytera.RadioRegistrationService.toPy⟩),
   ("Hytera.TextMessageProtocol", ⟨_, Hytera.TextMessageProtocol.read, Hytera.TextMessageProtocol.toPy⟩),
   ("Hytera.IpSiteConnectProtocol", ⟨_, Hytera.IpSiteConnectProtocol.read, Hytera.IpSiteConnectProtocol.toPy⟩),
   ("Hytera.RadioControlProtocol", ⟨_, Hytera.RadioControlProtocol.read, Hytera.RadioControlProtocol.toPy⟩),
   ("Hytera.DataDeliveryStates", ⟨_, Hytera.DataDeliveryStates.read, Hytera.DataDeliveryStates.toPy⟩),
   ("Hytera.HyteraDmrApplicationProtocol", ⟨_, Hytera.HyteraDmrApplicationProtocol.read, Hytera.HyteraDmrApplicationProtocol.toPy⟩),
   ("Hytera.HyteraRadioNetworkProtocol", ⟨_, Hytera.HyteraRadioNetworkProtocol.read, Hytera.HyteraRadioNetworkProtocol.toPy⟩),
   ("Hytera.HyteraSimpleTransportReliabilityProtocol", ⟨_, Hytera.HyteraSimpleTransportReliabilityProtocol.read, Hytera.HyteraSimpleTransportReliabilityProtocol.toPy⟩),
   ("Hytera.LocationProtocol", ⟨_, Hytera.LocationProtocol.read, Hytera.LocationProtocol.toPy⟩),
   ("Hytera.DataTransmitProtocol", ⟨_, Hytera.DataTransmitProtocol.read, Hytera.DataTransmitProtocol.toPy⟩),
   ("Hytera.TelemetryProtocol", ⟨_, Hytera.TelemetryProtocol.read, Hytera.TelemetryProtocol.toPy⟩),
   ("Homebrew.Homebrew2015", ⟨_, Homebrew.Homebrew2015.read, Homebrew.Homebrew2015.toPy⟩),
   ("Homebrew.Mmdvm2020", ⟨_, Homebrew.Mmdvm2020.read, Homebrew.Mmdvm2020.toPy⟩),
   ("Hytera.RealTimeTransportProtocol", ⟨_, Hytera.RealTimeTransportProtocol.read, Hytera.RealTimeTransportProtocol.toPy⟩),
   ("Hytera.IpSiteConnectHeartbeat", ⟨_, Hytera.IpSiteConnectHeartbeat.read, Hytera.IpSiteConnectHeartbeat.toPy⟩)]

theorem datagramReaders_known : ∀ p ∈ datagramReaders, (p.1, some p.2) ∈ table := by
  intro p hp
  simp only [datagramReaders, List.mem_cons, List.not_mem_nil, or_false] at hp
  rcases hp with rfl | rfl | rfl | rfl | rfl | rfl | rfl | rfl | rfl | rfl | rfl | rfl | rfl | rfl | rfl | rfl | rfl
  · exact List.mem_of_getElem? (i := 142) rfl
  · exact List.mem_of_getElem? (i := 166) rfl
  · exact List.mem_of_getElem? (i := 52) rfl
  · exact List.mem_of_getElem? (i := 63) rfl
  · exact List.mem_of_getElem? (i := 20) rfl
  · exact List.mem_of_getElem? (i := 49) rfl
  · exact List.mem_of_getElem? (i := 0) rfl
  · exact List.mem_of_getElem? (i := 11) rfl
  · exact List.mem_of_getElem? (i := 12) rfl
  · exact List.mem_of_getElem? (i := 14) rfl
  · exact List.mem_of_getElem? (i := 39) rfl
  · exact List.mem_of_getElem? (i := 7) rfl
  · exact List.mem_of_getElem? (i := 62) rfl
  · exact List.mem_of_getElem? (i := 116) rfl
  · exact List.mem_of_getElem? (i := 133) rfl
  · exact List.mem_of_getElem? (i := 55) rfl
  · exact List.mem_of_getElem? (i := 19) rfl

theorem accepts_iff {name : String} {R : Reader} (hR : (name, some R) ∈ table) (b : Bytes) : Py.Accepts name b ↔ ∃ x, fromBytes R.read b = .ok x := by
  constructor
  · rintro ⟨tree, heap, s, h, -⟩
    obtain ⟨x, -, hx, -⟩ := model_of_run hR (Nat.le_refl 13) (h 13 (Nat.le_refl 13))
    exact ⟨x, by unfold Dmr.fromBytes; rw [hx]⟩
  · rintro ⟨x, hx⟩
    exact ⟨_, (C64_gives name R hR b x).mpr hx⟩

/-! ### Marks -/

theorem rrs_mark {b : Bytes} (h : Py.Accepts "Hytera.RadioRegistrationService" b) : u8 b 0 = 0 := by
  obtain ⟨x, hx⟩ := (accepts_iff (datagramReaders_known _ (List.mem_of_getElem? (i := 2) rfl)) b).mp h
  have hx : fromBytes Hytera.RadioRegistrationService.read b = .ok x := hx
  rw [Hytera.C13_layout] at hx
  split at hx
  · cases hx
  split at hx
  · cases hx
  next h => simpa using h

theorem hrnp_mark {b : Bytes} (h : Py.Accepts "Hytera.HyteraRadioNetworkProtocol" b) : u8 b 0 = 0x7E := by
  obtain ⟨x, hx⟩ := (accepts_iff (datagramReaders_known _ (List.mem_of_getElem? (i := 8) rfl)) b).mp h
  exact (Hytera.C16_data b x hx).2.1

theorem hstrp_mark {b : Bytes} (h : Py.Accepts "Hytera.HyteraSimpleTransportReliabilityProtocol" b) : u8 b 0 = 0x32 := by
  obtain ⟨x, hx⟩ := (accepts_iff (datagramReaders_known _ (List.mem_of_getElem? (i := 9) rfl)) b).mp h
  obtain ⟨e1, e2, hi⟩ := (Hytera.C17_layout b x).mp hx
  have := hi.header.1
  match b, this with
  | a :: _ :: _, h => cases h; rfl

theorem rtp_mark {b : Bytes} (h : Py.Accepts "Hytera.RealTimeTransportProtocol" b) : u8 b 0 / 64 = 2 := by
  obtain ⟨x, hx⟩ := (accepts_iff (datagramReaders_known _ (List.mem_of_getElem? (i := 15) rfl)) b).mp h
  have hx : fromBytes Hytera.RealTimeTransportProtocol.read b = .ok x := hx
  have := Hytera.C22_errors b
  by_cases h1 : b.length < 1
  · cases hx.symm.trans (this.1 h1)
  by_cases h2 : u8 b 0 / 64 = 2
  · exact h2
  · cases hx.symm.trans (this.2.1 (by omega) h2)

/-- No text begins in the middle of a character. -/
theorem utf8_mark {s : PyStr} {b : Bytes} (h : encUtf8 s = b) : u8 b 0 / 64 ≠ 2 := by
  subst h
  cases s with
  | nil => decide
  | cons c s =>
    have hc := c.valid
    have hn : c.toNat < 0x110000 := by
      have := c.valid
      simp only [UInt32.isValidChar, Nat.isValidChar] at this
      show c.val.toNat < _
      omega
    have : ∃ n tl, encUtf8 (c :: s) = UInt8.ofNat n :: tl ∧ n < 256 ∧ n / 64 ≠ 2 := by
      rw [encUtf8, List.flatMap_cons]
      unfold encUtf8Char
      dsimp only
      split
      · exact ⟨_, _, rfl, by omega, by omega⟩
      split
      · exact ⟨_, _, rfl, by omega, by omega⟩
      split
      · exact ⟨_, _, rfl, by omega, by omega⟩
      · exact ⟨_, _, rfl, by omega, by omega⟩
    obtain ⟨n, tl, e, h1, h2⟩ := this
    rw [e]
    show (UInt8.ofNat n).toNat / 64 ≠ 2
    rw [UInt8.toNat_ofNat_of_lt' h1]
    exact h2

theorem u8_take {b : Bytes} : u8 (b.take 4) 0 = u8 b 0 := by
  cases b <;> rfl

theorem homebrew_mark {b : Bytes} (h : Py.Accepts "Homebrew.Homebrew2015" b) : u8 b 0 / 64 ≠ 2 := by
  obtain ⟨x, hx⟩ := (accepts_iff (datagramReaders_known _ (List.mem_of_getElem? (i := 13) rfl)) b).mp h
  rw [← u8_take]
  exact utf8_mark ((Homebrew.C29_dispatch b).2.2.2 x hx).2.1

theorem mmdvm_mark {b : Bytes} (h : Py.Accepts "Homebrew.Mmdvm2020" b) : u8 b 0 / 64 ≠ 2 := by
  obtain ⟨x, hx⟩ := (accepts_iff (datagramReaders_known _ (List.mem_of_getElem? (i := 14) rfl)) b).mp h
  obtain ⟨h4, ha, -⟩ := (Homebrew.C30_dispatch b).2.2.2 x hx
  have := Homebrew.encAscii_lt (b := b) (o := 0) (n := 4) ha (by omega) 0 (by omega) (by omega)
  omega

/-- **C73.** No packet is accepted by both classes of a pair. -/
theorem C73_apart (p : String × String) (hp : p ∈ apart) (b : Bytes) : ¬ (Py.Accepts p.1 b ∧ Py.Accepts p.2 b) := by
  rintro ⟨h1, h2⟩
  simp only [apart, List.mem_cons, List.not_mem_nil, or_false] at hp
  rcases hp with rfl | rfl | rfl | rfl | rfl | rfl | rfl | rfl
  · have := rrs_mark h1; have := hrnp_mark h2; omega
  · have := rrs_mark h1; have := hstrp_mark h2; omega
  · have := rrs_mark h1; have := rtp_mark h2; omega
  · have := hrnp_mark h1; have := hstrp_mark h2; omega
  · have := hrnp_mark h1; have := rtp_mark h2; omega
  · have := hstrp_mark h1; have := rtp_mark h2; omega
  · have := homebrew_mark h1; have := rtp_mark h2; omega
  · have := mmdvm_mark h1; have := rtp_mark h2; omega

/-- Packets, and who accepts them. -/
def ambiguous : List (Bytes × List Nat) :=
  [([0, 0, 3, 0] ++ List.replicate 20 32, [0, 1, 2, 3, 5, 6, 7, 10, 11, 12, 13, 14, 16]),
   ([126, 65, 90, 90] ++ List.replicate 200 0, [0, 1, 3, 4, 6, 8, 10, 11, 12, 13, 14, 16]),
   ([50, 66, 3, 0] ++ List.replicate 20 3, [0, 1, 3, 5, 6, 7, 9, 10, 11, 12, 13, 14, 16]),
   ([128, 0, 3, 0] ++ List.replicate 20 32, [0, 1, 3, 5, 6, 7, 10, 11, 12, 15, 16]),
   ([126, 0, 3, 1] ++ List.replicate 8 32, [0, 1, 6, 7, 8, 10, 11, 12, 13, 14, 16]),
   ([126, 0, 0, 0, 0, 0, 0, 0, 0, 0, 0, 0, 1, 0, 3], [0, 5, 6, 8, 10, 11, 12, 13, 14, 16]),
   ([0, 8, 90, 90] ++ List.replicate 68 32, [0, 2, 3, 4, 6, 10, 11, 12, 13, 14, 16]),
   ([66, 8, 90, 90] ++ List.replicate 68 32, [0, 4, 5, 6, 10, 11, 12, 13, 14, 16]),
   ([128, 65, 90, 90] ++ List.replicate 68 32, [0, 3, 4, 6, 10, 11, 12, 15, 16]),
   ([50, 66, 90, 90] ++ List.replicate 68 32, [0, 3, 4, 6, 9, 10, 11, 12, 13, 14, 16]),
   ([8, 160, 90, 90, 0, 0, 3] ++ List.replicate 65 0, [0, 3, 4, 6, 7, 10, 11, 12, 16])]

theorem ambiguous_accepted : ∀ w ∈ ambiguous, ∀ i ∈ w.2, (datagramReaders[i]?).any (fun p => (fromBytes p.2.read w.1).toBool) = true := by
  decide +kernel

theorem ambiguous_cover : ∀ i ∈ List.range 17, ∀ j ∈ List.range 17, i ≠ j → ((datagrams[i]?.getD "", datagrams[j]?.getD "") ∉ apart) →
    ((datagrams[j]?.getD "", datagrams[i]?.getD "") ∉ apart) → ∃ w ∈ ambiguous, i ∈ w.2 ∧ j ∈ w.2 := by
  decide +kernel

theorem datagramReaders_names : datagramReaders.map Prod.fst = datagrams := rfl

/-- **C73.** And for each other pair there is a packet that both accept: what comes first is not enough to tell them apart. -/
theorem C73_otherwise (c : String) (hc : c ∈ datagrams) (d : String) (hd : d ∈ datagrams) (ne : c ≠ d) (h1 : (c, d) ∉ apart) (h2 : (d, c) ∉ apart) :
    ∃ b, Py.Accepts c b ∧ Py.Accepts d b := by
  obtain ⟨i, hi, ei⟩ := List.mem_iff_getElem.mp hc
  obtain ⟨j, hj, ej⟩ := List.mem_iff_getElem.mp hd
  have hi' : i < 17 := hi
  have hj' : j < 17 := hj
  have gi : datagrams[i]?.getD "" = c := by rw [List.getElem?_eq_getElem hi, ei]; rfl
  have gj : datagrams[j]?.getD "" = d := by rw [List.getElem?_eq_getElem hj, ej]; rfl
  obtain ⟨w, hw, wi, wj⟩ := ambiguous_cover i (List.mem_range.mpr hi') j (List.mem_range.mpr hj') (by rintro rfl; exact ne (ei.symm.trans ej))
    (by rw [gi, gj]; exact h1) (by rw [gi, gj]; exact h2)
  have key : ∀ (k : Nat) (a : String), k ∈ w.2 → datagrams[k]? = some a → Py.Accepts a w.1 := by
    intro k a hk ha
    have hb := ambiguous_accepted w hw k hk
    rw [← datagramReaders_names, List.getElem?_map] at ha
    cases hr : datagramReaders[k]? with
    | none => rw [hr] at ha; cases ha
    | some p =>
      rw [hr] at ha hb
      cases ha
      refine (accepts_iff (datagramReaders_known p (List.mem_of_getElem? hr)) w.1).mpr ?_
      have hb : (fromBytes p.2.read w.1).toBool = true := hb
      cases hx : fromBytes p.2.read w.1 with
      | ok x => exact ⟨x, rfl⟩
      | error e => rw [hx] at hb; cases hb
  exact ⟨w.1, key i c wi (by rw [List.getElem?_eq_getElem hi, ei]), key j d wj (by rw [List.getElem?_eq_getElem hj, ej])⟩

/-- The four that begin with a mark. -/
def marked : List String :=
  ["Hytera.RadioRegistrationService", "Hytera.HyteraRadioNetworkProtocol", "Hytera.HyteraSimpleTransportReliabilityProtocol", "Hytera.RealTimeTransportProtocol"]

/-- **C73.** A receiver that tries these four, in any order, and takes the first one that accepts: the order does not matter. -/
theorem C73_marked (b : Bytes) (c : String) (hc : c ∈ marked) (d : String) (hd : d ∈ marked) (h1 : Py.Accepts c b) (h2 : Py.Accepts d b) : c = d := by
  have all : ∀ c ∈ marked, ∀ d ∈ marked, c = d ∨ (c, d) ∈ apart ∨ (d, c) ∈ apart := by decide
  rcases all c hc d hd with h | h | h
  · exact h
  · exact absurd ⟨h1, h2⟩ (C73_apart _ h b)
  · exact absurd ⟨h2, h1⟩ (C73_apart _ h b)

theorem ipsc_mark {b : Bytes} (h : Py.Accepts "Hytera.IpSiteConnectProtocol" b) : u8 b 2 = 0x5A := by
  obtain ⟨x, hx⟩ := (accepts_iff (datagramReaders_known _ (List.mem_of_getElem? (i := 4) rfl)) b).mp h
  exact ((Hytera.C19_accept b).1.mp ⟨x, hx⟩).2.1

/-- What the prefixes of Homebrew begin with. -/
theorem prefix_mark {b : Bytes} {p : PyStr} (h : b.take 4 = encUtf8 p)
    (hp : p ∈ ["RPTL", "MSTA", "RPTK", "RPTC", "DMRD", "MSTC", "RPTP", "MSTP", "MSTN", "DMRG", "RPTA", "RPTO", "RPTS", "DMRA"].map String.toList) (c : String)
    (hc : c ∈ "Hytera.IpSiteConnectProtocol" :: marked) : ¬ Py.Accepts c b := by
  have ht : ∀ p ∈ ["RPTL", "MSTA", "RPTK", "RPTC", "DMRD", "MSTC", "RPTP", "MSTP", "MSTN", "DMRG", "RPTA", "RPTO", "RPTS", "DMRA"].map String.toList,
      u8 (encUtf8 p) 0 ∈ [0x44, 0x4D, 0x52] ∧ u8 (encUtf8 p) 2 ≠ 0x5A := by decide +kernel
  obtain ⟨h0, h2⟩ := ht p hp
  have e0 : u8 (b.take 4) 0 = u8 b 0 := u8_take
  have e2 : u8 (b.take 4) 2 = u8 b 2 := by
    match b with
    | [] | [_] | [_, _] | _ :: _ :: _ :: _ => rfl
  rw [← h, e0] at h0
  rw [← h, e2] at h2
  simp only [List.mem_cons, List.not_mem_nil, or_false] at h0
  intro ha
  simp only [marked, List.mem_cons, List.not_mem_nil, or_false] at hc
  rcases hc with rfl | rfl | rfl | rfl | rfl
  · exact h2 (ipsc_mark ha)
  · have := rrs_mark ha; omega
  · have := hrnp_mark ha; omega
  · have := hstrp_mark ha; omega
  · have := rtp_mark ha; omega

/-- **C73.** A packet that one of the two Homebrew classes gives a body is not accepted by any of the four, nor by IP Site Connect. -/
theorem C73_homebrew (b : Bytes) :
    (∀ x : Homebrew.Homebrew2015, Py.Gives "Homebrew.Homebrew2015" b x.toPy → x.command_data ≠ none → ∀ c ∈ "Hytera.IpSiteConnectProtocol" :: marked, ¬ Py.Accepts c b) ∧
    (∀ x : Homebrew.Mmdvm2020, Py.Gives "Homebrew.Mmdvm2020" b x.toPy → x.command_data ≠ none → ∀ c ∈ "Hytera.IpSiteConnectProtocol" :: marked, ¬ Py.Accepts c b) := by
  constructor
  · intro x hx hd
    have hx := (C64_gives "Homebrew.Homebrew2015" ⟨_, Homebrew.Homebrew2015.read, Homebrew.Homebrew2015.toPy⟩ (List.mem_of_getElem? (i := 116) rfl) b x).mp hx
    obtain ⟨-, hp, hl⟩ := (Homebrew.C29_dispatch b).2.2.2 x hx
    obtain ⟨c, hc⟩ := Option.ne_none_iff_exists'.mp hd
    rw [hc] at hl
    refine prefix_mark hp.symm ?_
    have hm := List.mem_map_of_mem (f := Prod.fst) (Homebrew.lookup_mem hl.symm)
    have sub : ∀ p ∈ Homebrew.Homebrew2015.commands.map Prod.fst,
        p ∈ ["RPTL", "MSTA", "RPTK", "RPTC", "DMRD", "MSTC", "RPTP", "MSTP", "MSTN", "DMRG", "RPTA", "RPTO", "RPTS", "DMRA"].map String.toList := by decide +kernel
    exact sub _ hm
  · intro x hx hd
    have hx := (C64_gives "Homebrew.Mmdvm2020" ⟨_, Homebrew.Mmdvm2020.read, Homebrew.Mmdvm2020.toPy⟩ (List.mem_of_getElem? (i := 133) rfl) b x).mp hx
    obtain ⟨-, hp, hl⟩ := (Homebrew.C30_dispatch b).2.2.2 x hx
    obtain ⟨c, hc⟩ := Option.ne_none_iff_exists'.mp hd
    rw [hc] at hl
    have hm := List.mem_map_of_mem (f := Prod.fst) (Homebrew.lookup_mem hl.symm)
    have sub : ∀ p ∈ Homebrew.Mmdvm2020.commands.map Prod.fst,
        p ∈ ["RPTL", "MSTA", "RPTK", "RPTC", "DMRD", "MSTC", "RPTP", "MSTP", "MSTN", "DMRG", "RPTA", "RPTO", "RPTS", "DMRA"].map String.toList ∧
          encAscii p = some (encUtf8 p) := by decide +kernel
    obtain ⟨h1, h2⟩ := sub _ hm
    exact prefix_mark (Option.some.inj (hp.symm.trans h2)) h1

/-- A packet of two classes: a registration for one, radio control for the other. -/
example : Py.Accepts "Hytera.RadioRegistrationService" ([0, 0, 3, 0] ++ List.replicate 20 32) ∧ Py.Accepts "Hytera.RadioControlProtocol" ([0, 0, 3, 0] ++ List.replicate 20 32) := by
  constructor
  · refine (accepts_iff (datagramReaders_known _ (List.mem_of_getElem? (i := 2) rfl)) _).mpr ?_
    exact ⟨_, rfl⟩
  · refine (accepts_iff (datagramReaders_known _ (List.mem_of_getElem? (i := 5) rfl)) _).mpr ?_
    exact ⟨_, rfl⟩

/-- A refusal is not for IP Site Connect. -/
example : ¬ Py.Accepts "Hytera.IpSiteConnectProtocol" (Homebrew.asc "MSTNAK" ++ [0, 1, 2, 3]) :=
  (C73_homebrew _).1 ⟨"MSTN".toList, some (.typeMasterNotAccept ⟨Homebrew.asc "AK", 66051⟩)⟩
    ((C64_gives "Homebrew.Homebrew2015" ⟨_, Homebrew.Homebrew2015.read, Homebrew.Homebrew2015.toPy⟩ (List.mem_of_getElem? (i := 116) rfl) _ _).mpr
      (by decide +kernel)) nofun _ (by decide)

end Dmr
