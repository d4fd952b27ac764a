import Verif.Refine
import Verif.Enum
import Verif.Spec.Parse
/-
Composition rules for whole structures: once a structure has been shown to parse according to a
specification function, it is used as one step in the structures that contain it.
-/

namespace Dmr

/-- `r` always takes exactly `n` bytes and builds `f buf q` from the bytes at offset `q`; fewer bytes
raise EOFError. -/
def Fixed (r : Rd α) (n : Nat) (f : Bytes → Nat → α) : Prop :=
  ∀ (buf : Bytes) (q : Nat), q ≤ buf.length →
    Rd.eval r (Stream.at buf (8 * q)) =
      if q + n ≤ buf.length then .ok (f buf q, Stream.at buf (8 * (q + n))) else .error .eof

/-- A parse result as the outcome of a reader over the stream. -/
def lift (b : Bytes) (x : Parsed α) : Except PyErr (α × Stream) :=
  match x with
  | .ok (a, e) => .ok (a, Stream.at b (8 * e))
  | .error e => .error e

/-- A parse result that ends within the data. -/
def InRange (b : Bytes) (x : Parsed α) : Prop := ∀ a e, x = .ok (a, e) → e ≤ b.length

/-- `r` behaves, at every byte offset `q` of every buffer, as the parse function `f`:
`f buf q` is the exception, or the object together with the offset of the first byte after it. -/
structure Parses (r : Rd α) (f : Bytes → Nat → Parsed α) : Prop where
  run : ∀ (buf : Bytes) (q : Nat), q ≤ buf.length → Rd.eval r (Stream.at buf (8 * q)) = lift buf (f buf q)
  range : ∀ (buf : Bytes) (q : Nat), q ≤ buf.length → InRange buf (f buf q)

theorem Fixed.e {r : Rd α} {n : Nat} {f : Bytes → Nat → α} (h : Fixed r n f) (buf : Bytes) (p : Nat)
    (h8 : p % 8 = 0) (hp : p ≤ 8 * buf.length) :
    Rd.eval r (Stream.at buf p) =
      if p / 8 + n ≤ buf.length then .ok (f buf (p / 8), Stream.at buf (8 * (p / 8 + n)))
      else .error .eof := by
  obtain ⟨q, rfl⟩ : ∃ q, p = 8 * q := ⟨p / 8, by omega⟩
  rw [h buf q (by omega)]; simp

theorem Fixed.b {r : Rd α} {n : Nat} {f : Bytes → Nat → α} (h : Fixed r n f) (k : α → Rd β) (buf : Bytes)
    (p : Nat) (h8 : p % 8 = 0) (hp : p ≤ 8 * buf.length) :
    Rd.eval (r >>= k) (Stream.at buf p) =
      if p / 8 + n ≤ buf.length then Rd.eval (k (f buf (p / 8))) (Stream.at buf (8 * (p / 8 + n)))
      else .error .eof := by
  rw [eval_bind, h.e buf p h8 hp, andThen_ite, andThen_ok, andThen_error]

theorem Fixed.fromBytes {r : Rd α} {n : Nat} {f : Bytes → Nat → α} (h : Fixed r n f) (buf : Bytes) :
    fromBytes r buf = if n ≤ buf.length then .ok (f buf 0) else .error .eof := by
  rw [fromBytes_eq, h.e buf 0 rfl (by omega)]
  simp only [Nat.zero_div, Nat.zero_add]
  split <;> rfl

theorem Parses.e {r : Rd α} {f : Bytes → Nat → Parsed α} (h : Parses r f) (buf : Bytes) (p : Nat)
    (h8 : p % 8 = 0) (hp : p ≤ 8 * buf.length) :
    Rd.eval r (Stream.at buf p) = lift buf (f buf (p / 8)) := by
  obtain ⟨q, rfl⟩ : ∃ q, p = 8 * q := ⟨p / 8, by omega⟩
  rw [h.run buf q (by omega)]; simp

theorem Parses.b {r : Rd α} {f : Bytes → Nat → Parsed α} (h : Parses r f) (k : α → Rd β) (buf : Bytes)
    (p : Nat) (h8 : p % 8 = 0) (hp : p ≤ 8 * buf.length) :
    Rd.eval (r >>= k) (Stream.at buf p) =
      next buf (f buf (p / 8)) (fun a e => Rd.eval (k a) (Stream.at buf (8 * e))) := by
  rw [eval_bind, h.e buf p h8 hp]
  have hr := h.range buf (p / 8) (by omega)
  rcases hx : f buf (p / 8) with _ | ⟨a, e⟩
  · rfl
  · rw [next, if_pos (hr a e hx)]; rfl

theorem Parses.fromBytes {r : Rd α} {f : Bytes → Nat → Parsed α} (h : Parses r f) (buf : Bytes) :
    fromBytes r buf = (f buf 0).map Prod.fst := by
  rw [fromBytes_eq, h.e buf 0 rfl (by omega), Nat.zero_div]
  rcases f buf 0 with _ | ⟨_, _⟩ <;> rfl

@[rd] theorem div8_mul (q : Nat) : 8 * q / 8 = q := by omega

/-! ### In-range results -/

theorem InRange.error (b : Bytes) (e : PyErr) : InRange b (.error e : Parsed α) := by
  intro a e h; cases h
theorem InRange.ok {b : Bytes} {a : α} {e : Nat} (h : e ≤ b.length) : InRange b (.ok (a, e) : Parsed α) := by
  intro a' e' h'; cases h'; exact h
theorem InRange.ite {b : Bytes} {c : Prop} [Decidable c] {x y : Parsed α} (hx : c → InRange b x)
    (hy : ¬c → InRange b y) : InRange b (if c then x else y) := by
  split
  · exact hx ‹_›
  · exact hy ‹_›
theorem InRange.next {b : Bytes} {x : Parsed α} {k : α → Nat → Parsed β}
    (h : ∀ a e, e ≤ b.length → InRange b (k a e)) : InRange b (next b x k) := by
  unfold Dmr.next
  rcases x with _ | ⟨a, e⟩
  · exact InRange.error b _
  · exact InRange.ite (fun hc => h a e hc) (fun _ => InRange.error b _)
theorem InRange.decoded {b : Bytes} {t : Option PyStr} {k : PyStr → Parsed β}
    (h : ∀ t, InRange b (k t)) : InRange b (decoded t k) := by
  unfold Dmr.decoded
  cases t
  · exact InRange.error b _
  · exact h _
theorem InRange.upTo {b : Bytes} {e : Nat} {x : Parsed α} (h : e ≤ b.length → InRange b x) :
    InRange b (upTo b e x) := InRange.ite h (fun _ => InRange.error b _)
theorem InRange.textAt {b : Bytes} {c : Bytes → Option PyStr} {o n : Nat} {k : PyStr → Parsed β}
    (h : o + n ≤ b.length → ∀ t, InRange b (k t)) : InRange b (textAt c b o n k) :=
  InRange.ite (fun hc => InRange.decoded (h hc)) (fun _ => InRange.error b _)
theorem InRange.sizedAt {b : Bytes} {o : Nat} {n : Int} {k : Bytes → Parsed β}
    (h : 0 ≤ n → o + n.toNat ≤ b.length → ∀ t, InRange b (k t)) : InRange b (sizedAt b o n k) :=
  InRange.ite (fun _ => InRange.error b _) (fun hn =>
    InRange.ite (fun hc => h (by omega) hc _) (fun _ => InRange.error b _))
theorem InRange.fixedAt {b : Bytes} {o : Nat} {v : Bytes} {path : String} {x : Parsed β}
    (h : o + v.length ≤ b.length → InRange b x) : InRange b (fixedAt b o v path x) :=
  InRange.ite (fun hc => InRange.ite (fun _ => h hc) (fun _ => InRange.error b _)) (fun _ => InRange.error b _)
theorem InRange.as {b : Bytes} {x : Parsed α} (g : α → β) (h : InRange b x) : InRange b (x.as g) := by
  rcases x with _ | ⟨a, e⟩
  · exact InRange.error b _
  · exact InRange.ok (h a e rfl)
theorem InRange.whole {b : Bytes} {n q : Nat} {f : Bytes → Nat → α} : InRange b (whole n f b q) :=
  InRange.ite InRange.ok (fun _ => InRange.error b _)
theorem InRange.optPart {b : Bytes} {c : Prop} [Decidable c] {x : Parsed α} {o : Nat} (ho : o ≤ b.length)
    (h : InRange b x) : InRange b (optPart c x o) :=
  InRange.ite (fun _ => h.as some) (fun _ => InRange.ok ho)

/-- Discharges `InRange b (X.spec b q)` once the specification is unfolded. -/
macro "in_range" : tactic =>
  `(tactic| repeat' (first
      | exact InRange.error _ _
      | (refine InRange.ok ?_; (try simp only [List.length_cons, List.length_nil] at *); omega)
      | (refine InRange.ite ?_ ?_ <;> intro _)
      | (refine InRange.next ?_; intro _ _ _)
      | (refine InRange.decoded ?_; intro _)
      | (refine InRange.upTo ?_; intro _)
      | (refine InRange.textAt ?_; intro _ _)
      | (refine InRange.sizedAt ?_; intro _ _ _)
      | (refine InRange.fixedAt ?_; intro _)
      | exact InRange.whole
      | refine InRange.as _ ?_))

/-! ### Rewriting parse results -/

@[rd] theorem lift_ok (b : Bytes) (a : α) (e : Nat) : lift b (.ok (a, e)) = .ok (a, Stream.at b (8 * e)) := rfl
@[rd] theorem lift_error (b : Bytes) (e : PyErr) : lift b (.error e : Parsed α) = .error e := rfl
@[rd] theorem lift_ite (b : Bytes) (c : Prop) [Decidable c] (x y : Parsed α) :
    lift b (if c then x else y) = if c then lift b x else lift b y := by split <;> rfl
@[rd] theorem lift_next (b : Bytes) (x : Parsed α) (k : α → Nat → Parsed β) :
    lift b (next b x k) = next b x (fun a e => lift b (k a e)) := by
  unfold next
  rcases x with _ | ⟨a, e⟩
  · rfl
  · exact lift_ite ..
@[rd] theorem lift_decoded (b : Bytes) (t : Option PyStr) (k : PyStr → Parsed β) :
    lift b (decoded t k) = decoded t (fun t => lift b (k t)) := by cases t <;> rfl
@[rd] theorem lift_as (b : Bytes) (x : Parsed α) (g : α → β) :
    lift b (x.as g) = andThen (lift b x) (fun a s => .ok (g a, s)) := by
  rcases x with _ | ⟨_, _⟩ <;> rfl
@[rd] theorem next_ok (b : Bytes) (a : α) (e : Nat) (k : α → Nat → Except PyErr γ) (h : e ≤ b.length) :
    next b (.ok (a, e)) k = k a e := if_pos h
@[rd] theorem next_error (b : Bytes) (e : PyErr) (k : α → Nat → Except PyErr γ) :
    next b (.error e) k = .error e := rfl
@[rd] theorem next_ite (b : Bytes) (c : Prop) [Decidable c] (x y : Parsed α) (k : α → Nat → Except PyErr γ) :
    next b (if c then x else y) k = if c then next b x k else next b y k := by split <;> rfl
@[rd] theorem next_decoded (b : Bytes) (t : Option PyStr) (f : PyStr → Parsed α) (k : α → Nat → Except PyErr γ) :
    next b (decoded t f) k = decoded t (fun t => next b (f t) k) := by cases t <;> rfl
@[rd] theorem next_whole (b : Bytes) (n : Nat) (f : Bytes → Nat → α) (q : Nat) (k : α → Nat → Except PyErr γ) :
    next b (whole n f b q) k = if q + n ≤ b.length then k (f b q) (q + n) else .error .eof := by
  unfold whole
  by_cases h : q + n ≤ b.length <;> simp [h, next]
@[rd] theorem next_as (b : Bytes) (x : Parsed α) (g : α → β) (k : β → Nat → Except PyErr γ) :
    next b (x.as g) k = next b x (fun a e => k (g a) e) := by
  rcases x with _ | ⟨_, _⟩ <;> rfl
attribute [rd] upTo textAt sizedAt fixedAt List.length_cons List.length_nil

@[congr] theorem next_congr {b : Bytes} {x : Parsed α} {k k' : α → Nat → Except PyErr γ}
    (h : ∀ a e, e ≤ b.length → k a e = k' a e) : next b x k = next b x k' := by
  unfold next
  rcases x with _ | ⟨a, e⟩
  · rfl
  · by_cases hc : e ≤ b.length
    · simp only [hc, if_true]; exact h a e hc
    · simp only [hc, if_false]

theorem next_of_range {b : Bytes} {x : Parsed α} (hr : InRange b x) (k : α → Stream → Except PyErr (γ × Stream)) :
    next b x (fun a e => k a (Stream.at b (8 * e))) = andThen (lift b x) k := by
  rcases x with _ | ⟨a, e⟩
  · rfl
  · exact if_pos (hr a e rfl)

/-! ### Composition -/

theorem Fixed.parses {r : Rd α} {n : Nat} {f : Bytes → Nat → α} (h : Fixed r n f) : Parses r (whole n f) := by
  refine ⟨?_, fun _ _ _ => InRange.whole⟩
  intro buf q hq
  rw [h buf q hq, whole, lift_ite]; rfl

theorem Parses.congr {r : Rd α} {f g : Bytes → Nat → Parsed α} (h : Parses r f)
    (hfg : ∀ b q, q ≤ b.length → f b q = g b q) : Parses r g :=
  ⟨fun b q hq => by rw [← hfg b q hq]; exact h.run b q hq,
   fun b q hq => by rw [← hfg b q hq]; exact h.range b q hq⟩

/-- `x = R(...)` stored as one of several kinds of object. -/
theorem Parses.map {r : Rd α} {f : Bytes → Nat → Parsed α} (h : Parses r f) (g : α → β) :
    Parses (do let x ← r; return g x) (fun b q => (f b q).as g) := by
  refine ⟨fun b q hq => ?_, fun b q hq => (h.range b q hq).as g⟩
  rw [eval_bind, h.run b q hq, lift_as]; rfl

theorem Parses.none : Parses (Pure.pure (Option.none : Option α)) (fun _ q => .ok (Option.none, q)) :=
  ⟨fun _ _ _ => rfl, fun _ _ hq => InRange.ok hq⟩

theorem Parses.ite {c d : Prop} [Decidable c] [Decidable d] {r r' : Rd α} {f f' : Bytes → Nat → Parsed α}
    (hc : c ↔ d) (h : Parses r f) (h' : Parses r' f') :
    Parses (if c then r else r') (fun b q => if d then f b q else f' b q) := by
  by_cases hd : d
  · have hcc := hc.mpr hd
    simpa only [hd, hcc, if_true] using h
  · have hcc : ¬c := fun x => hd (hc.mp x)
    simpa only [hd, hcc, if_false] using h'

/-- One `if _on == E.e` of a dispatch on an enumeration: decided by the number on the wire. -/
theorem Parses.caseEnum {E : Type} [PyEnum E] [LawfulEnum E] {v n : Nat} {e : E}
    [Decidable (resolveEnum E v = .known e)] {r r' : Rd α}
    {f f' : Bytes → Nat → Parsed α} (hn : PyEnum.value e = n) (h : Parses r f) (h' : Parses r' f') :
    Parses (if resolveEnum E v = .known e then r else r') (fun b q => if v = n then f b q else f' b q) :=
  Parses.ite (by rw [resolveEnum_eq_known, hn]) h h'

/-- `if cond: self.x = ...`. -/
theorem Parses.optionally {c : Bool} {d : Prop} [Decidable d] (hc : c = true ↔ d) {r : Rd α}
    {f : Bytes → Nat → Parsed α} (h : Parses r f) :
    Parses (optionally c r) (fun b q => optPart d (f b q) q) := by
  unfold Dmr.optionally optPart
  exact Parses.ite hc (h.map some) Parses.none


open Lean in
/-- `fixed_layout X n` proves `X.fixed : Fixed X.read n X.spec` by symbolic execution and registers the
rules that use it inside larger structures. -/
macro "fixed_layout " nm:ident n:num : command => do
  let r := mkIdent (nm.getId ++ `read)
  let f := mkIdent (nm.getId ++ `spec)
  let t := mkIdent (nm.getId ++ `fixed)
  let u := mkIdent (nm.getId ++ `parses)
  let b := mkIdent (nm.getId ++ `b_read)
  let e := mkIdent (nm.getId ++ `e_read)
  `(theorem $t : Fixed $r $n $f := by
      intro buf q hq
      unfold $r $f
      first
        | (rd_simp []; done)
        | (rd_simp []; simp only [Nat.mul_add, Nat.add_assoc, Nat.reduceMul, Nat.reduceAdd]; done)
    theorem $u : Parses $r (whole $n $f) := Fixed.parses $t
    @[rd ↓] theorem $b {β : Type} (k : _ → Rd β) (buf : Bytes) (p : Nat) (h8 : p % 8 = 0) (hp : p ≤ 8 * buf.length) :
        Rd.eval ($r >>= k) (Stream.at buf p) =
          if p / 8 + $n ≤ buf.length then Rd.eval (k ($f buf (p / 8))) (Stream.at buf (8 * (p / 8 + $n)))
          else .error .eof := Fixed.b $t k buf p h8 hp
    @[rd ↓] theorem $e (buf : Bytes) (p : Nat) (h8 : p % 8 = 0) (hp : p ≤ 8 * buf.length) :
        Rd.eval $r (Stream.at buf p) =
          if p / 8 + $n ≤ buf.length then .ok ($f buf (p / 8), Stream.at buf (8 * (p / 8 + $n)))
          else .error .eof := Fixed.e $t buf p h8 hp)

/-! ### Loops -/

/-- Repetition of a fixed-size part. -/
theorem repeatN_fixed {r : Rd α} {n : Nat} {f : Bytes → Nat → α} (h : Fixed r n f) (m : Nat) :
    Fixed (repeatN m r) (n * m) (fun b q => (List.range m).map fun i => f b (q + n * i)) := by
  induction m with
  | zero =>
    intro buf q hq
    simp [repeatN, eval_pure, hq]
  | succ m ih =>
    intro buf q hq
    rw [repeatN, h.b _ buf _ (by omega) (by omega), div8_mul, List.range_succ_eq_map]
    by_cases hc : q + n ≤ buf.length
    · rw [if_pos hc, ih.b _ buf _ (by omega) (by omega), div8_mul, eval_pure]
      have e1 : q + n + n * m = q + n * (m + 1) := by rw [Nat.mul_succ]; omega
      rw [e1]
      simp only [List.map_cons, List.map_map, Nat.mul_zero, Nat.add_zero]
      congr 5
      funext i
      show f buf (q + n + n * i) = f buf (q + n * (i + 1))
      rw [Nat.mul_succ]; congr 1; omega
    · have : ¬ q + n * (m + 1) ≤ buf.length := by rw [Nat.mul_succ]; omega
      rw [if_neg hc, if_neg this]

/-- A part that always advances. -/
def Advances (f : Bytes → Nat → Parsed α) : Prop := ∀ b q a e, f b q = .ok (a, e) → q < e

/-- `while True: ...; if stop: break` over an advancing part never runs out of fuel. -/
theorem eval_repeatUntil {r : Rd α} {f : Bytes → Nat → Parsed α} (h : Parses r f) (hadv : Advances f)
    {stop : α → Rd Bool} {st : α → Nat → Bool} {buf : Bytes}
    (hst : ∀ a e, e ≤ buf.length → Rd.eval (stop a) (Stream.at buf (8 * e)) = .ok (st a e, Stream.at buf (8 * e))) :
    ∀ (fuel q : Nat), q ≤ buf.length → buf.length < fuel + q →
      Rd.eval (repeatUntil fuel r stop) (Stream.at buf (8 * q)) = lift buf (chain f st buf q) := by
  intro fuel
  induction fuel with
  | zero => intro q hq hf; omega
  | succ fuel ih =>
    intro q hq hf
    rw [repeatUntil, eval_bind, h.run buf q hq, chain]
    rcases hx : f buf q with _ | ⟨a, e⟩
    · rfl
    · have h1 := hadv buf q a e hx
      have h2 := h.range buf q hq a e hx
      simp only [lift_ok, andThen_ok]
      rw [eval_bind, hst a e h2, andThen_ok, eval_ite]
      by_cases hs : st a e = true
      · simp only [hs, if_true]; rfl
      · simp only [hs]
        rw [dif_pos ⟨h1, h2⟩]
        by_cases hl : fuel = 0
        · exfalso; omega
        · rw [eval_bind, ih e h2 (by omega)]
          rcases chain f st buf e with _ | ⟨_, _⟩ <;> rfl

theorem chain_range {f : Bytes → Nat → Parsed α} {st : α → Nat → Bool} {b : Bytes}
    (hr : ∀ q, q ≤ b.length → InRange b (f b q)) :
    ∀ (n q : Nat), b.length - q ≤ n → q ≤ b.length → InRange b (chain f st b q) := by
  intro n
  induction n with
  | zero =>
    intro q hn hq as e h
    rw [chain] at h
    rcases hx : f b q with _ | ⟨a, e1⟩ <;> simp only [hx] at h
    · cases h
    · have := hr q hq a e1 hx
      split at h
      · cases h; exact this
      · rw [dif_neg (by omega)] at h; cases h
  | succ n ih =>
    intro q hn hq as e h
    rw [chain] at h
    rcases hx : f b q with _ | ⟨a, e1⟩ <;> simp only [hx] at h
    · cases h
    · have := hr q hq a e1 hx
      split at h
      · cases h; exact this
      · by_cases hc : q < e1 ∧ e1 ≤ b.length
        · rw [dif_pos hc] at h
          rcases hy : chain f st b e1 with _ | ⟨as', e2⟩ <;> simp only [hy] at h
          · cases h
          · cases h; exact ih e1 (by omega) hc.2 _ _ hy
        · rw [dif_neg hc] at h; cases h

/-- `while not eof` over an advancing part never runs out of fuel. -/
theorem eval_repeatEos {r : Rd α} {f : Bytes → Nat → Parsed α} (h : Parses r f) (hadv : Advances f)
    {buf : Bytes} :
    ∀ (fuel q : Nat), q ≤ buf.length → buf.length ≤ fuel + q →
      Rd.eval (repeatEos fuel r) (Stream.at buf (8 * q)) = lift buf (toEnd f buf q) := by
  intro fuel
  induction fuel with
  | zero =>
    intro q hq hf
    rw [repeatEos, b_isEof buf _ (by omega), toEnd]
    have : q = buf.length := by omega
    subst this
    simp only [decide_true, if_true, Nat.le_refl]; rfl
  | succ fuel ih =>
    intro q hq hf
    rw [repeatEos, b_isEof buf _ (by omega), toEnd]
    by_cases hc : buf.length ≤ q
    · have : q = buf.length := by omega
      subst this
      simp only [decide_true, if_true, Nat.le_refl]; rfl
    · have hne : ¬ 8 * q = 8 * buf.length := by omega
      simp only [hne, decide_false, hc, if_false, Bool.false_eq_true]
      rw [eval_bind, h.run buf q hq]
      rcases hx : f buf q with _ | ⟨a, e⟩
      · rfl
      · have h1 := hadv buf q a e hx
        have h2 := h.range buf q hq a e hx
        simp only [lift_ok, andThen_ok]
        rw [dif_pos ⟨h1, h2⟩, eval_bind, ih e h2 (by omega)]
        rcases toEnd f buf e with _ | ⟨_, _⟩ <;> rfl

/-- A successful `toEnd` ends at the end. -/
theorem toEnd_end {f : Bytes → Nat → Parsed α} {b : Bytes} :
    ∀ (n q : Nat), b.length - q ≤ n → q ≤ b.length → ∀ as e, toEnd f b q = .ok (as, e) → e = b.length := by
  intro n
  induction n with
  | zero =>
    intro q hn hq as e h
    rw [toEnd, if_pos (by omega)] at h
    cases h; omega
  | succ n ih =>
    intro q hn hq as e h
    rw [toEnd] at h
    split at h
    · cases h; omega
    · rcases hx : f b q with _ | ⟨a, e1⟩ <;> simp only [hx] at h
      · cases h
      · by_cases hc : q < e1 ∧ e1 ≤ b.length
        · rw [dif_pos hc] at h
          rcases hy : toEnd f b e1 with _ | ⟨as', e2⟩ <;> simp only [hy] at h
          · cases h
          · cases h; exact ih e1 (by omega) hc.2 _ _ hy
        · rw [dif_neg hc] at h; cases h

theorem toEnd_range {f : Bytes → Nat → Parsed α} {b : Bytes} (q : Nat) (hq : q ≤ b.length) :
    InRange b (toEnd f b q) := by
  intro as e h
  rw [toEnd_end _ q (Nat.le_refl _) hq as e h]

/-- Optional parts inside a reader. -/
theorem b_optPart {c : Bool} {d : Prop} [Decidable d] (hc : c = true ↔ d) {r : Rd α} {buf : Bytes} {q : Nat}
    {x : Parsed α} (h : Rd.eval r (Stream.at buf (8 * q)) = lift buf x) (hr : InRange buf x)
    (hq : q ≤ buf.length) (k : Option α → Rd β) :
    Rd.eval (optionally c r >>= k) (Stream.at buf (8 * q)) =
      next buf (optPart d x q) (fun a e => Rd.eval (k a) (Stream.at buf (8 * e))) := by
  unfold optPart
  by_cases hd : d
  · rw [b_optionally, if_pos (hc.mpr hd), if_pos hd, eval_bind, h, next_as]
    rcases x with _ | ⟨a, e⟩
    · rfl
    · simp only [next, if_pos (hr a e rfl)]; rfl
  · have : ¬ (c = true) := fun h => hd (hc.mp h)
    rw [b_optionally, if_neg this, if_neg hd, next, if_pos hq]

theorem ite_right {c : Prop} [Decidable c] {x y z : γ} (h : c → x = y) : (if c then x else z) = if c then y else z := by
  split
  · exact h ‹_›
  · rfl
theorem ite_both {c : Prop} [Decidable c] {x y z w : γ} (h : c → x = y) (h' : ¬c → z = w) :
    (if c then x else z) = if c then y else w := by
  split
  · exact h ‹_›
  · exact h' ‹_›

/-- Closes a goal whose two sides have the same tests but name a tested value differently. -/
macro "rd_close" : tactic =>
  `(tactic| repeat' (first
      | rfl
      | (refine next_congr ?_; intro _ _ _)
      | (refine ite_right ?_; intro _)
      | (refine ite_both ?_ ?_ <;> intro _)
      | (simp only [*]; done)))

/-- A field that must have a given value. -/
theorem eval_fixedAt {n : Nat} {v : Bytes} {path : String} {buf : Bytes} {q : Nat} {k : Bytes → Rd β} {y : Parsed β}
    (hv : v.length = n) (hq : q ≤ buf.length)
    (h : q + n ≤ buf.length → slice buf q n = v → Rd.eval (k v) (Stream.at buf (8 * (q + n))) = lift buf y) :
    Rd.eval (readBytes n >>= fun x => validateEq x v path >>= fun _ => k x) (Stream.at buf (8 * q)) =
      lift buf (fixedAt buf q v path y) := by
  subst hv
  rw [b_readBytes buf _ (by omega)]
  have e : (8 * q + 7) / 8 = q := by omega
  simp only [e, b_validateEq, fixedAt, lift_ite, lift_error]
  refine ite_right fun h1 => ite_right fun h2 => ?_
  rw [h2]; exact h h1 h2

/-- The same after a field of `m` bytes. -/
theorem eval_skip_fixedAt {m n : Nat} {v : Bytes} {path : String} {buf : Bytes} {q : Nat} {k : Bytes → Bytes → Rd β}
    {y : Parsed β} (hv : v.length = n) (hq : q ≤ buf.length)
    (h : q + m + n ≤ buf.length → slice buf (q + m) n = v →
      Rd.eval (k (slice buf q m) v) (Stream.at buf (8 * (q + m + n))) = lift buf y) :
    Rd.eval (readBytes m >>= fun s => readBytes n >>= fun x => validateEq x v path >>= fun _ => k s x)
        (Stream.at buf (8 * q)) = lift buf (fixedAt buf (q + m) v path y) := by
  rw [b_readBytes buf _ (by omega)]
  have e : (8 * q + 7) / 8 = q := by omega
  simp only [e]
  by_cases hc : q + m ≤ buf.length
  · rw [if_pos hc]; exact eval_fixedAt hv hc h
  · rw [if_neg hc, fixedAt, if_neg (by omega)]; rfl

/-- A part inside a reader. -/
theorem eval_next {r : Rd α} {f : Bytes → Nat → Parsed α} (hp : Parses r f) {buf : Bytes} {q : Nat} {k : α → Rd β}
    {g : α → Nat → Parsed β} (hq : q ≤ buf.length)
    (h : ∀ a e, e ≤ buf.length → Rd.eval (k a) (Stream.at buf (8 * e)) = lift buf (g a e)) :
    Rd.eval (r >>= k) (Stream.at buf (8 * q)) = lift buf (next buf (f buf q) g) := by
  rw [hp.b k buf _ (by omega) (by omega), div8_mul, lift_next]
  exact next_congr fun a e he => h a e he

/-- An optional part inside a reader. -/
theorem eval_optPart {c : Bool} {d : Prop} [Decidable d] {r : Rd α} {x : Parsed α} {buf : Bytes} {q : Nat}
    {k : Option α → Rd β} {g : Option α → Nat → Parsed β} (hc : c = true ↔ d)
    (h : Rd.eval r (Stream.at buf (8 * q)) = lift buf x) (hr : InRange buf x) (hq : q ≤ buf.length)
    (hk : ∀ a e, e ≤ buf.length → Rd.eval (k a) (Stream.at buf (8 * e)) = lift buf (g a e)) :
    Rd.eval (optionally c r >>= k) (Stream.at buf (8 * q)) = lift buf (next buf (optPart d x q) g) := by
  rw [b_optPart hc h hr hq, lift_next]
  exact next_congr fun a e he => hk a e he

/-- Symbolic execution of a reader against its specification. -/
macro "rd_layout" "[" ts:Lean.Parser.Tactic.simpLemma,* "]" : tactic =>
  `(tactic| (rd_simp [$ts,*] <;> (try simp only [Nat.mul_add, Nat.add_assoc, Nat.reduceMul, Nat.reduceAdd]) <;> rd_close))

open Lean in
/-- `parse_layout X [rules]` proves `X.parses : Parses X.read X.spec` by symbolic execution and registers
the rule that uses it inside larger structures. -/
macro "parse_layout " nm:ident "[" ts:Lean.Parser.Tactic.simpLemma,* "]" : command => do
  let r := mkIdent (nm.getId ++ `read)
  let f := mkIdent (nm.getId ++ `spec)
  let u := mkIdent (nm.getId ++ `parses)
  let b := mkIdent (nm.getId ++ `b_read)
  `(theorem $u : Parses $r $f := by
      refine ⟨?_, ?_⟩ <;> intro buf q hq <;> unfold $f
      · unfold $r
        rd_layout [$ts,*]
      · in_range
    @[rd ↓] theorem $b {β : Type} (k : _ → Rd β) (buf : Bytes) (p : Nat) (h8 : p % 8 = 0) (hp : p ≤ 8 * buf.length) :
        Rd.eval ($r >>= k) (Stream.at buf p) =
          next buf ($f buf (p / 8)) (fun a e => Rd.eval (k a) (Stream.at buf (8 * e))) := Parses.b $u k buf p h8 hp)

open Lean in
/-- `parse_layout1 X α [rules]`: the same for a structure whose layout depends on one value of type `α`. -/
macro "parse_layout1 " nm:ident t:term:max "[" ts:Lean.Parser.Tactic.simpLemma,* "]" : command => do
  let r := mkIdent (nm.getId ++ `read)
  let f := mkIdent (nm.getId ++ `spec)
  let u := mkIdent (nm.getId ++ `parses)
  let b := mkIdent (nm.getId ++ `b_read)
  `(theorem $u (n : $t) : Parses ($r n) ($f n) := by
      refine ⟨?_, ?_⟩ <;> intro buf q hq <;> unfold $f
      · unfold $r
        rd_layout [$ts,*]
      · in_range
    @[rd ↓] theorem $b (n : $t) {β : Type} (k : _ → Rd β) (buf : Bytes) (p : Nat) (h8 : p % 8 = 0)
        (hp : p ≤ 8 * buf.length) :
        Rd.eval ($r n >>= k) (Stream.at buf p) =
          next buf ($f n buf (p / 8)) (fun a e => Rd.eval (k a) (Stream.at buf (8 * e))) :=
      Parses.b ($u n) k buf p h8 hp)

end Dmr
