import Verif.Py.TimeErase
/-
How many steps programs take, at most: a bound that is computed from their text, and is linear in the number of unread bytes.
-/

set_option autoImplicit false

namespace Dmr.Py.Time

/-- The number of bytes of the streams that have not been read. -/
def left (σ : State) : Nat := (σ.streams.map fun s => s.buf.length - s.pos).sum

/-- At most `a` steps and `b` for each byte that is read, and at least `k` bytes are read unless it raises. -/
structure Cost where
  a : Nat
  b : Nat
  k : Nat

/-- So much, starting at `σ`. If it raises, it may have taken `b` steps for each byte that there was. -/
def At {α : Type} (c : Cost) (σ : State) (x : Nat × Out α) : Prop :=
  match x.2 with
  | .ok _ τ => left τ + c.k ≤ left σ ∧ x.1 + c.b * left τ ≤ c.a + c.b * left σ
  | .raise _ _ => x.1 ≤ c.a + c.b * left σ

/-- Wherever it starts. -/
def Within {α : Type} (c : Cost) (m : T α) : Prop := ∀ σ, At c σ (m.run σ)

/-- One after the other. -/
def Cost.seq (c d : Cost) : Cost := ⟨c.a + d.a, max c.b d.b, c.k + d.k⟩
/-- One of both. -/
def Cost.alt (c d : Cost) : Cost := ⟨max c.a d.a, max c.b d.b, min c.k d.k⟩
/-- `c` is at most `d`. -/
def Cost.le (c d : Cost) : Prop := c.a ≤ d.a ∧ c.b ≤ d.b ∧ d.k ≤ c.k

/-- Nothing. -/
abbrev nothing : Cost := ⟨0, 0, 0⟩
/-- One step. -/
abbrev step : Cost := ⟨1, 0, 0⟩

variable {α β : Type}

theorem At.mono {c d : Cost} {σ : State} {x : Nat × Out α} (h : At c σ x) (hcd : c.le d) : At d σ x := by
  obtain ⟨ha, hb, hk⟩ := hcd
  obtain ⟨t, o⟩ := x
  obtain ⟨n, hn⟩ := Nat.exists_eq_add_of_le hb
  cases o with
  | ok v τ =>
    obtain ⟨h1, h2⟩ := h
    refine ⟨by omega, ?_⟩
    dsimp only at h2 ⊢
    rw [hn, Nat.add_mul, Nat.add_mul]
    have : n * left τ ≤ n * left σ := Nat.mul_le_mul_left _ (by omega)
    omega
  | raise e τ =>
    have h : t ≤ c.a + c.b * left σ := h
    show t ≤ d.a + d.b * left σ
    have : c.b * left σ ≤ d.b * left σ := Nat.mul_le_mul_right _ hb
    omega

theorem Within.mono {c d : Cost} {m : T α} (h : Within c m) (hcd : c.le d) : Within d m := fun σ => (h σ).mono hcd

theorem Cost.le_refl (c : Cost) : c.le c := ⟨Nat.le_refl _, Nat.le_refl _, Nat.le_refl _⟩
theorem Cost.le_trans {c d e : Cost} (h : c.le d) (h' : d.le e) : c.le e := ⟨Nat.le_trans h.1 h'.1, Nat.le_trans h.2.1 h'.2.1, Nat.le_trans h'.2.2 h.2.2⟩
theorem Cost.le_alt_left (c d : Cost) : c.le (c.alt d) := ⟨Nat.le_max_left _ _, Nat.le_max_left _ _, Nat.min_le_left _ _⟩
theorem Cost.le_alt_right (c d : Cost) : d.le (c.alt d) := ⟨Nat.le_max_right _ _, Nat.le_max_right _ _, Nat.min_le_right _ _⟩

theorem run_bind (m : T α) (f : α → T β) (σ : State) : (m >>= f).run σ =
    match m.run σ with
    | (t, .ok a σ') => (t + ((f a).run σ').1, ((f a).run σ').2)
    | (t, .raise e σ') => (t, .raise e σ') := rfl

theorem run_tick (f : Unit → T β) (σ : State) : (tick >>= f).run σ = (1 + ((f ()).run σ).1, ((f ()).run σ).2) := rfl

/-- The second starts where the first ends. -/
theorem at_bind {c d : Cost} {m : T α} {f : α → T β} {σ : State} (hm : At c σ (m.run σ))
    (hf : ∀ t a τ, m.run σ = (t, .ok a τ) → At d τ ((f a).run τ)) : At (c.seq d) σ ((m >>= f).run σ) := by
  rw [run_bind]
  rcases hr : m.run σ with ⟨t, ⟨a, τ⟩ | ⟨e, τ⟩⟩
  · rw [hr] at hm
    have h2 := hf t a τ hr
    dsimp only
    have hb1 : c.b ≤ max c.b d.b := Nat.le_max_left _ _
    have hb2 : d.b ≤ max c.b d.b := Nat.le_max_right _ _
    have h1 := hm.mono (d := ⟨c.a, max c.b d.b, c.k⟩) ⟨Nat.le_refl _, hb1, Nat.le_refl _⟩
    have h2 := h2.mono (d := ⟨d.a, max c.b d.b, d.k⟩) ⟨Nat.le_refl _, hb2, Nat.le_refl _⟩
    obtain ⟨h1, h1'⟩ := h1
    dsimp only at h1 h1'
    rcases hy : (f a).run τ with ⟨u, ⟨b, υ⟩ | ⟨e, υ⟩⟩
    · rw [hy] at h2
      obtain ⟨h2, h2'⟩ := h2
      dsimp only at h2 h2'
      show left υ + (c.k + d.k) ≤ left σ ∧ t + u + max c.b d.b * left υ ≤ c.a + d.a + max c.b d.b * left σ
      omega
    · rw [hy] at h2
      have h2 : u ≤ d.a + max c.b d.b * left τ := h2
      show t + u ≤ c.a + d.a + max c.b d.b * left σ
      omega
  · rw [hr] at hm
    have h : t ≤ c.a + c.b * left σ := hm
    show t ≤ c.a + d.a + max c.b d.b * left σ
    have : c.b * left σ ≤ max c.b d.b * left σ := Nat.mul_le_mul_right _ (Nat.le_max_left _ _)
    omega

theorem within_bind {c d : Cost} {m : T α} {f : α → T β} (hm : Within c m) (hf : ∀ a, Within d (f a)) : Within (c.seq d) (m >>= f) :=
  fun σ => at_bind (hm σ) fun _ a τ _ => hf a τ

theorem within_tick {d : Cost} {f : Unit → T β} (hf : Within d (f ())) : Within (step.seq d) (tick >>= f) :=
  fun σ => at_bind (m := tick) (c := step) ⟨Nat.le_refl _, by show 1 + 0 * _ ≤ 1 + 0 * _; omega⟩ fun _ _ τ _ => hf τ

theorem within_pure (a : α) : Within nothing (pure a : T α) := fun _ => ⟨Nat.le_refl _, by show 0 + 0 * _ ≤ 0 + 0 * _; omega⟩
theorem within_raise (e : PyErr) (c : Cost) : Within c (free (raise e) : T α) := fun _ => Nat.zero_le _

/-- Uncounted and without reading. -/
theorem within_free {m : M α} (h : ∀ σ a τ, m.run σ = .ok a τ → τ.streams = σ.streams) : Within nothing (free m) := by
  intro σ
  show At nothing σ (0, m.run σ)
  cases hr : m.run σ with
  | ok a τ =>
    have : left τ = left σ := by unfold left; rw [h σ a τ hr]
    refine ⟨by show left τ + 0 ≤ left σ; omega, ?_⟩
    show 0 + 0 * _ ≤ 0 + 0 * _
    omega
  | raise e τ => exact Nat.zero_le _

theorem within_ite {c d : Cost} {p : Prop} [Decidable p] {m m' : T α} (h : Within c m) (h' : Within d m') : Within (c.alt d) (if p then m else m') := by
  split
  · exact h.mono (Cost.le_alt_left _ _)
  · exact h'.mono (Cost.le_alt_right _ _)

theorem nothing_le {c : Cost} (h : c.k = 0) : nothing.le c := ⟨Nat.zero_le _, Nat.zero_le _, h ▸ Nat.le_refl _⟩

theorem streams_fetch (r : Nat) : ∀ σ a τ, (fetch r).run σ = .ok a τ → τ.streams = σ.streams := by
  intro σ a τ h
  unfold M.run fetch at h
  split at h <;> cases h
  rfl

theorem streams_store (r : Nat) (x : String) (v : Val) : ∀ σ a τ, (store r x v).run σ = .ok a τ → τ.streams = σ.streams := by
  intro σ a τ h
  unfold M.run store at h
  split at h <;> cases h
  rfl

theorem streams_alloc (n : String) : ∀ σ a τ, (alloc n).run σ = .ok a τ → τ.streams = σ.streams := by
  intro σ a τ h
  cases h
  rfl

/-- It leaves everything as it is, or raises. -/
def Still (m : M α) : Prop := ∀ σ a τ, m.run σ = .ok a τ → τ = σ

theorem still_pure (a : α) : Still (pure a : M α) := fun _ _ _ h => by cases h; rfl
theorem still_raise (e : PyErr) : Still (raise e : M α) := fun _ _ _ h => by cases h
theorem still_fetch (r : Nat) : Still (fetch r) := by
  intro σ a τ h
  unfold M.run fetch at h
  split at h <;> cases h
  rfl
theorem still_bind {m : M α} {f : α → M β} (hm : Still m) (hf : ∀ a, Still (f a)) : Still (m >>= f) := by
  intro σ b τ h
  have e : (m >>= f).run σ = Out.bind (m.run σ) fun a σ' => (f a).run σ' := rfl
  rw [e] at h
  cases hr : m.run σ with
  | ok a υ => rw [hr] at h; cases hm σ a υ hr; exact hf a _ b τ h
  | raise e υ => rw [hr] at h; cases h
theorem still_ite {p : Prop} [Decidable p] {m m' : M α} (h : Still m) (h' : Still m') : Still (if p then m else m') := by
  split
  · exact h
  · exact h'

/-- Goes through what is written with these. -/
macro "still" : tactic => `(tactic|
  repeat' (first
    | exact still_pure _
    | exact still_raise _
    | exact still_fetch _
    | assumption
    | (refine still_bind ?_ (fun _ => ?_))
    | (refine still_ite ?_ ?_)
    | split))

theorem still_bin (op : BinOp) (a b : Val) : Still (op.apply a b) := by unfold BinOp.apply; still
theorem still_cmp (op : CmpOp) (a b : Val) : Still (op.apply a b) := by unfold CmpOp.apply; still
theorem still_builtin {g : String} (hg : g ≠ "KaitaiStream") (args : List Val) : Still (builtin g args) := by
  unfold builtin
  still
  exact absurd rfl hg
theorem still_loopBound (env : Env) : Still (loopBound env) := by
  intro σ a τ h
  unfold M.run loopBound at h
  repeat' split at h
  all_goals cases h
  rfl

theorem Still.within {m : M α} (h : Still m) : Within nothing (free m) := within_free fun σ a τ e => by rw [h σ a τ e]

/-- The reader goes forward by at least `k` bytes, or raises. -/
def Eats (k : Nat) (r : Rd α) : Prop := ∀ s a s', r s = (.ok a, s') → s'.buf = s.buf ∧ (s'.buf.length - s'.pos) + k ≤ s.buf.length - s.pos

theorem eats_bind {j k : Nat} {r : Rd α} {f : α → Rd β} (hr : Eats j r) (hf : ∀ a, Eats k (f a)) : Eats (j + k) (r >>= f) := by
  intro s b s' h
  change Rd.bind r f s = _ at h
  unfold Rd.bind at h
  rcases hx : r s with ⟨_ | a, t⟩
  · rw [hx] at h; cases h
  · rw [hx] at h
    have h1 := hr s a t hx
    have h2 := hf a t b s' h
    exact ⟨h2.1.trans h1.1, by omega⟩

theorem eats_pure (a : α) : Eats 0 (pure a : Rd α) := fun s b s' h => by cases h; exact ⟨rfl, Nat.le_refl _⟩
theorem eats_align : Eats 0 alignToByte := fun s b s' h => by cases h; exact ⟨rfl, Nat.le_refl _⟩
theorem eats_notAligned (n : Nat) : Eats n (readBytesNotAligned n) := by
  intro s b s' h
  unfold readBytesNotAligned at h
  dsimp only at h
  split at h
  · rename_i hn
    cases h
    refine ⟨rfl, ?_⟩
    dsimp only
    rw [List.length_take, List.length_drop] at hn ⊢
    omega
  · cases h
theorem Eats.less {j k : Nat} {r : Rd α} (h : Eats k r) (hj : j ≤ k) : Eats j r := fun s a s' e => ⟨(h s a s' e).1, by have := (h s a s' e).2; omega⟩
theorem eats_bytes (n : Nat) : Eats n (readBytes n) := (eats_bind eats_align fun _ => eats_notAligned n).less (by omega)
theorem eats_bytesInt (n : Int) : Eats n.toNat (readBytesInt n) := by
  refine (eats_bind (k := n.toNat) eats_align fun _ => ?_).less (Nat.le_add_left _ _)
  split
  · intro s b s' h; cases h
  · exact eats_notAligned _
theorem eats_full : Eats 0 readBytesFull := by
  refine (eats_bind (k := 0) eats_align fun _ => ?_).less (Nat.le_refl _)
  intro s b s' h
  cases h
  refine ⟨rfl, ?_⟩
  dsimp only
  omega
theorem eats_bits (n : Nat) : Eats 0 (readBitsIntBe n) := by
  intro s b s' h
  unfold readBitsIntBe at h
  dsimp only at h
  split at h
  · split at h
    · cases h
    · rename_i c s2 hx
      cases h
      have := eats_notAligned _ _ _ _ hx
      exact ⟨this.1, by have := this.2; dsimp only at this ⊢; omega⟩
  · cases h
    exact ⟨rfl, Nat.le_refl _⟩

theorem left_set (l : List Stream) (i : Nat) (s s' : Stream) (h : l[i]? = some s) :
    ((l.set i s').map fun s => s.buf.length - s.pos).sum + (s.buf.length - s.pos) = (l.map fun s => s.buf.length - s.pos).sum + (s'.buf.length - s'.pos) := by
  induction l generalizing i with
  | nil => cases h
  | cons t l ih =>
    cases i with
    | zero =>
      cases h
      simp only [List.set_cons_zero, List.map_cons, List.sum_cons]
      omega
    | succ i =>
      have := ih i h
      simp only [List.set_cons_succ, List.map_cons, List.sum_cons]
      omega

theorem within_onStream {n k : Nat} {r : Rd α} (hr : Eats k r) {f : α → M Val} (hf : ∀ a, Still (f a)) : Within ⟨0, 0, k⟩ (free (onStream n r >>= f)) := by
  intro σ
  show At _ σ (0, Out.bind ((onStream n r).run σ) fun a τ => (f a).run τ)
  unfold M.run onStream after
  split
  · rename_i s hs
    rcases hx : r s with ⟨e | a, s'⟩
    · exact Nat.zero_le _
    · have h := hr s a s' hx
      show At _ σ (0, (f a).run _)
      cases hy : (f a).run ⟨σ.heap, σ.streams.set n s'⟩ with
      | ok b τ =>
        cases hf a _ b τ hy
        have := left_set σ.streams n s s' hs
        refine ⟨?_, by show 0 + 0 * _ ≤ 0 + 0 * _; omega⟩
        unfold left
        dsimp only
        omega
      | raise e τ => exact Nat.zero_le _
  · exact Nat.zero_le _

/-- The methods of streams that read at least one byte. -/
def eaters : List String := ["read_u1", "read_u2be", "read_u2le", "read_u4be", "read_u4le", "read_s2be"]

theorem within_ioMethod (n : Nat) (m : String) (hm : m ≠ "seek") (args : List Val) : Within ⟨0, 0, if m ∈ eaters then 1 else 0⟩ (free (ioMethod n m args)) := by
  have hp := fun {j : Nat} (hj : 1 ≤ j) => fun {α : Type} (f : Bytes → α) => (eats_bind (eats_bytes j) fun b => eats_pure (f b)).less (j := 1) hj
  generalize hk : (if m ∈ eaters then 1 else 0) = k
  have h1 : m ∈ eaters → k = 1 := fun h => by rw [← hk, if_pos h]
  have h0 : m ∉ eaters → k = 0 := fun h => by rw [← hk, if_neg h]
  unfold ioMethod
  split
  all_goals first | (have e := h1 (by decide); subst e) | (have e := h0 (by decide); subst e) | skip
  · exact within_onStream (r := readU1) (hp (Nat.le_refl _) _) fun _ => still_pure _
  · exact within_onStream (r := readU2be) (hp (by omega) _) fun _ => still_pure _
  · exact within_onStream (r := readU2le) (hp (by omega) _) fun _ => still_pure _
  · exact within_onStream (r := readU4be) (hp (by omega) _) fun _ => still_pure _
  · exact within_onStream (r := readU4le) (hp (by omega) _) fun _ => still_pure _
  · exact within_onStream (r := readS2be) (hp (by omega) _) fun _ => still_pure _
  · exact within_onStream (eats_bits _) fun _ => still_pure _
  · exact within_onStream ((eats_bytesInt _).less (Nat.zero_le _)) fun _ => still_pure _
  · exact within_onStream eats_full fun _ => still_pure _
  · exact within_onStream eats_align fun _ => still_pure _
  · exact within_onStream (r := isEof) (fun s a s' h => by cases h; exact ⟨rfl, Nat.le_refl _⟩) fun _ => still_pure _
  · exact within_onStream (r := posIo) (fun s a s' h => by cases h; exact ⟨rfl, Nat.le_refl _⟩) fun _ => still_pure _
  · exact within_onStream (r := sizeIo) (fun s a s' h => by cases h; exact ⟨rfl, Nat.le_refl _⟩) fun _ => still_pure _
  · exact absurd rfl hm
  · exact within_raise _ _

end Dmr.Py.Time
