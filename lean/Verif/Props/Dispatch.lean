import Verif.Advance
/-
Helper for the dispatch properties: which kind of body a part decodes to, how many bytes it needs and how it
fails when they are missing.
-/

namespace Dmr

/-- The parse result `x` is an exception of a kind in `P`. -/
def Fails (P : List PyErr) (x : Except PyErr γ) : Prop := ∃ e ∈ P, x = .error e

theorem Fails.upTo {P : List PyErr} (hP : .eof ∈ P) {b : Bytes} {e : Nat} {x : Except PyErr γ} (h : Fails P x) :
    Fails P (upTo b e x) := by
  unfold Dmr.upTo; split
  · exact h
  · exact ⟨_, hP, rfl⟩
theorem Fails.textAt {P : List PyErr} (hP : .eof ∈ P) (hU : .unicode ∈ P) {c : Bytes → Option PyStr} {b : Bytes}
    {o n : Nat} {k : PyStr → Except PyErr γ}
    (h : ∀ t, o + n ≤ b.length → Fails P (k t)) : Fails P (textAt c b o n k) := by
  unfold Dmr.textAt; split
  · unfold decoded; split
    · exact h _ ‹_›
    · exact ⟨_, hU, rfl⟩
  · exact ⟨_, hP, rfl⟩
theorem Fails.upTo_short {P : List PyErr} (hP : .eof ∈ P) {b : Bytes} {e : Nat} {x : Except PyErr γ}
    (h : b.length < e) : Fails P (Dmr.upTo b e x) := by
  unfold Dmr.upTo; rw [if_neg (by omega)]; exact ⟨_, hP, rfl⟩
theorem Fails.fixedAt {P : List PyErr} (hP : .eof ∈ P) {b : Bytes} {o : Nat} {v : Bytes} {path : String}
    (hV : .validation path ∈ P) {x : Except PyErr γ} (h : o + v.length ≤ b.length → Fails P x) :
    Fails P (fixedAt b o v path x) := by
  unfold Dmr.fixedAt; split
  · split
    · exact h ‹_›
    · exact ⟨_, hV, rfl⟩
  · exact ⟨_, hP, rfl⟩

/-- The part `x` at offset `q` of `b`, when it is decoded, is a body whose class is `nm`, and takes at least
`size` bytes; with fewer bytes it fails with one of `P`. -/
structure BodyIs {U : Type} (nm : U → String) (P : List PyErr) (b : Bytes) (q : Nat) (name : String) (size : Nat)
    (x : Parsed (Option U)) : Prop where
  name : ∀ d e, x = .ok (d, e) → d.map nm = some name ∧ q + size ≤ e
  short : b.length < q + size → Fails P x

theorem BodyIs.part {U : Type} {nm : U → String} {P : List PyErr} {b : Bytes} {q n : Nat} {name : String}
    {x : Parsed α} {g : α → U} (hg : ∀ a, nm (g a) = name) (hl : AtLeast (q + n) x)
    (hs : b.length < q + n → Fails P x) : BodyIs nm P b q name n (x.as fun a => some (g a)) := by
  constructor
  · intro d e h
    rcases x with _ | ⟨a, e'⟩
    · cases h
    · cases h; exact ⟨by simp [hg], hl _ _ rfl⟩
  · intro h
    obtain ⟨e, he, h⟩ := hs h
    exact ⟨e, he, by rw [h]; rfl⟩

theorem BodyIs.whole {U : Type} {nm : U → String} {P : List PyErr} (hP : .eof ∈ P) {b : Bytes} {q n : Nat}
    {name : String} {f : Bytes → Nat → α} {g : α → U} (hg : ∀ a, nm (g a) = name) :
    BodyIs nm P b q name n ((whole n f b q).as fun x => some (g x)) :=
  BodyIs.part hg (AtLeast.whole (Nat.le_refl _)) fun h => ⟨_, hP, by unfold Dmr.whole; rw [if_neg (by omega)]⟩

/-- Looking up a code in a table of documented bodies. -/
theorem lookup_cases {β : Type} (t : List (Nat × β)) (op : Nat) :
    op ∈ t.map Prod.fst ∨ (t.lookup op = none ∧ ∀ n ∈ t.map Prod.fst, op ≠ n) := by
  by_cases h : op ∈ t.map Prod.fst
  · exact .inl h
  · refine .inr ⟨?_, fun n hn he => h (he ▸ hn)⟩
    rw [List.lookup_eq_none_iff]
    intro p hp
    have : op ≠ p.1 := fun he => h (he ▸ List.mem_map_of_mem hp)
    simp [this]

/-- A part followed by something that always succeeds. -/
theorem of_next_ok {b : Bytes} {x : Parsed α} {k : α → Nat → Except PyErr γ} {y : γ} (h : next b x k = .ok y) :
    ∃ a e, x = .ok (a, e) ∧ e ≤ b.length ∧ k a e = .ok y := by
  unfold next at h
  rcases x with _ | ⟨a, e⟩
  · cases h
  · simp only at h
    split at h
    · exact ⟨a, e, rfl, ‹_›, h⟩
    · cases h

theorem of_upTo_ok {b : Bytes} {e : Nat} {x : Except PyErr γ} {y : γ} (h : upTo b e x = .ok y) :
    e ≤ b.length ∧ x = .ok y := by
  unfold upTo at h
  split at h
  · exact ⟨‹_›, h⟩
  · cases h

theorem of_fixedAt_ok {b : Bytes} {o : Nat} {v : Bytes} {path : String} {x : Except PyErr γ} {y : γ}
    (h : fixedAt b o v path x = .ok y) : o + v.length ≤ b.length ∧ slice b o v.length = v ∧ x = .ok y := by
  unfold fixedAt at h
  split at h
  · split at h
    · exact ⟨‹_›, ‹_›, h⟩
    · cases h
  · cases h

theorem of_textAt_ok {c : Bytes → Option PyStr} {b : Bytes} {o n : Nat} {k : PyStr → Except PyErr γ} {y : γ}
    (h : textAt c b o n k = .ok y) : o + n ≤ b.length ∧ ∃ t, c (slice b o n) = some t ∧ k t = .ok y := by
  unfold textAt at h
  split at h
  · unfold decoded at h
    split at h
    · exact ⟨‹_›, _, ‹_›, h⟩
    · cases h
  · cases h

theorem of_as_ok {x : Parsed α} {g : α → β} {y : β} {e : Nat} (h : x.as g = .ok (y, e)) :
    ∃ a, x = .ok (a, e) ∧ g a = y := by
  rcases x with _ | ⟨a, e'⟩
  · cases h
  · cases h; exact ⟨a, rfl, rfl⟩

theorem of_whole_ok {n : Nat} {f : Bytes → Nat → α} {b : Bytes} {q : Nat} {a : α} {e : Nat}
    (h : whole n f b q = .ok (a, e)) : a = f b q ∧ e = q + n ∧ q + n ≤ b.length := by
  unfold whole at h
  split at h
  · cases h; exact ⟨rfl, rfl, ‹_›⟩
  · cases h

theorem of_map_fst_ok {x : Parsed α} {y : α} (h : x.map Prod.fst = .ok y) : ∃ e, x = .ok (y, e) := by
  rcases x with _ | ⟨a, e⟩
  · cases h
  · cases h; exact ⟨e, rfl⟩

/-! ### Bytes and their bits -/

theorem u8_lt (b : Bytes) (i : Nat) : u8 b i < 256 := UInt8.toNat_lt _

/-- The bits of a byte. -/
theorem bitsAt_byte (b : Bytes) (q i w : Nat) (hq : q < b.length) (hi : i + w ≤ 8) :
    bitsAt b (8 * q + i) w = u8 b q / 2 ^ (8 - i - w) % 2 ^ w := by
  have h1 : u8 b q = bitsAt b (8 * q) 8 := by
    rw [← beVal_slice b q 1 (by omega)]
    have : slice b q 1 = [b.getD q 0] := by
      unfold slice
      rw [List.drop_eq_getElem_cons hq, List.take_succ_cons, List.take_zero]
      simp [List.getElem?_eq_getElem hq]
    rw [this]
    simp [beVal, u8]
  obtain ⟨k, hk⟩ : ∃ k, k = 8 - i - w := ⟨_, rfl⟩
  have e : bitsAt b (8 * q) 8 = bitsAt b (8 * q) (i + w + k) := by congr 1; omega
  rw [h1, e, ← hk, bitsAt_div _ _ _ _ (by omega), bitsAt_mod _ _ _ _ (by omega)]

theorem flagAt_byte (b : Bytes) (q i : Nat) (hq : q < b.length) (hi : i < 8) :
    flagAt b (8 * q + i) = decide (u8 b q / 2 ^ (7 - i) % 2 = 1) := by
  unfold flagAt
  rw [bitsAt_byte b q i 1 hq (by omega), show 8 - i - 1 = 7 - i by omega, Nat.pow_one]
  rw [beq_eq_decide]

theorem slice_one (b : Bytes) (o : Nat) (h : o < b.length) : slice b o 1 = [b.getD o 0] := by
  unfold slice
  rw [List.drop_eq_getElem_cons h, List.take_succ_cons, List.take_zero]
  simp [List.getElem?_eq_getElem h]

theorem slice_one_eq (b : Bytes) (o : Nat) (v : UInt8) (h : o < b.length) : slice b o 1 = [v] ↔ u8 b o = v.toNat := by
  rw [slice_one b o h, u8]
  constructor
  · intro h; rw [List.singleton_inj.mp h]
  · intro h; rw [UInt8.toNat_inj.mp h]


end Dmr
