import Verif.Ksy.View
import Verif.Ksy.Attr
/-
The equations by which the proofs in this directory compute what a schema means.
-/

namespace Dmr.Ksy

theorem parse_succ (n : Nat) (outer : Scope) (t : TypeDef) : parse (n + 1) outer t = (do
    let attrs ← parseSeq (fun acc a =>
      a.read (eval (inst n) ⟨⟨t, acc⟩, outer.self, if t.top then ⟨t, acc⟩ else outer.root⟩)
        (parse n ⟨⟨t, acc⟩, outer.self, if t.top then ⟨t, acc⟩ else outer.root⟩)) false [] t.seq
    return .struct t.name attrs) := by rw [parse]

@[ksy ↓] theorem parseSeq_nil (read bits acc) : parseSeq read bits acc [] = pure acc := rfl

@[ksy ↓] theorem parseSeq_cons (read bits acc a rest) : parseSeq read bits acc (a :: rest) =
    alignIf (bits && !a.ty.isBits) >>= fun _ =>
      read acc a >>= fun o => parseSeq read a.ty.isBits (acc ++ PyVal.optAttr a.id o) rest := rfl

@[ksy] theorem alignIf_true : alignIf true = alignToByte := rfl
@[ksy] theorem alignIf_false : alignIf false = pure () := rfl

variable (ev : PyVal → Expr → Rd PyVal) (sub : TypeDef → Rd PyVal)

@[ksy ↓] theorem read_plain (id ty) : Attr.read ev sub ⟨id, ty, none, .once, none⟩ = readTy (ev .none) sub ty := by
  simp only [Attr.read, holds, repeated, pure_bind, if_true]
  exact rd_bind_pure _

theorem read_repeat (id ty rep) : Attr.read ev sub ⟨id, ty, none, rep, none⟩ =
    repeated ev (readTy (ev .none) sub ty) rep := by
  simp only [Attr.read, holds, pure_bind, if_true]
  exact rd_bind_pure _

@[ksy ↓] theorem read_times (id ty e) : Attr.read ev sub ⟨id, ty, none, .times e, none⟩ =
    repeated ev (readTy (ev .none) sub ty) (.times e) := read_repeat ev sub id ty _

@[ksy ↓] theorem read_until (id ty e) : Attr.read ev sub ⟨id, ty, none, .until e, none⟩ =
    repeated ev (readTy (ev .none) sub ty) (.until e) := read_repeat ev sub id ty _

@[ksy ↓] theorem read_eos (id ty) : Attr.read ev sub ⟨id, ty, none, .eos, none⟩ =
    repeated ev (readTy (ev .none) sub ty) .eos := read_repeat ev sub id ty _

@[ksy ↓] theorem read_if (id ty e rep) : Attr.read ev sub ⟨id, ty, some e, rep, none⟩ = (do
    let c ← ev .none e
    let b ← asBool c
    if b then repeated ev (readTy (ev .none) sub ty) rep else return none) := by
  simp only [Attr.read, holds, bind_assoc]
  refine rd_bind_congr fun c => rd_bind_congr fun b => ?_
  cases b
  · rfl
  · exact rd_bind_pure _

@[ksy ↓] theorem repeated_once (r : Rd (Option PyVal)) : repeated ev r .once = r := rfl

section
variable (ev : Expr → Rd PyVal) (sub : TypeDef → Rd PyVal)

@[ksy ↓] theorem readTy_prim (p) : readTy ev sub (.prim p) = (do return some (.int (← p.read))) := rfl
@[ksy ↓] theorem readTy_flag : readTy ev sub .flag = (do return some (.bool (← readFlag))) := rfl
@[ksy ↓] theorem readTy_bits (n) : readTy ev sub (.bits n) = (do return some (.int (Int.ofNat (← readBitsIntBe n)))) := rfl
@[ksy ↓] theorem readTy_bytes (e) : readTy ev sub (.bytes e) = (do
    let v ← ev e
    let n ← asInt v
    return some (.bytes (← readBytesInt n))) := rfl
@[ksy ↓] theorem readTy_bytesEos : readTy ev sub .bytesEos = (do return some (.bytes (← readBytesFull))) := rfl
@[ksy ↓] theorem readTy_str (e c) : readTy ev sub (.str e c) = (do
    let v ← ev e
    let n ← asInt v
    return some (.str (← decodeWith c.codec (readBytesInt n)))) := rfl
@[ksy ↓] theorem readTy_strEos (c) : readTy ev sub (.strEos c) = (do return some (.str (← decodeWith c.codec readBytesFull))) := rfl
@[ksy ↓] theorem readTy_contents (b p) : readTy ev sub (.contents b p) = (do
    let x ← readBytes b.length
    validateEq x b p
    return some (.bytes x)) := rfl
@[ksy ↓] theorem readTy_user (t) : readTy ev sub (.user t) = (do return some (← sub t)) := rfl
end

@[ksy] theorem always_bind (r : Rd α) (f : α → PyVal) : always (r >>= fun x => pure (some (f x))) = r >>= fun x => pure (f x) := by
  simp [always]

theorem repeatN_map (k : Nat) (r : Rd α) (f : α → β) :
    repeatN k (r >>= fun x => pure (f x)) = repeatN k r >>= fun l => pure (l.map f) := by
  induction k with
  | zero => rfl
  | succ k ih => simp only [repeatN, bind_assoc, pure_bind, ih, List.map_cons]

theorem repeatUntil_map (fuel : Nat) (r : Rd α) (f : α → β) (stop : β → Rd Bool) :
    repeatUntil fuel (r >>= fun x => pure (f x)) stop =
      repeatUntil fuel r (fun x => stop (f x)) >>= fun l => pure (l.map f) := by
  induction fuel with
  | zero => rfl
  | succ k ih =>
    simp only [repeatUntil, bind_assoc, pure_bind, ih]
    refine rd_bind_congr fun x => rd_bind_congr fun b => ?_
    cases b
    · simp only [Bool.false_eq_true, if_false, bind_assoc, pure_bind, List.map_cons]
    · rfl

theorem repeatEos_map (fuel : Nat) (r : Rd α) (f : α → β) :
    repeatEos fuel (r >>= fun x => pure (f x)) = repeatEos fuel r >>= fun l => pure (l.map f) := by
  induction fuel with
  | zero =>
    simp only [repeatEos, bind_assoc]
    refine rd_bind_congr fun b => ?_
    cases b <;> rfl
  | succ k ih =>
    rw [repeatEos, repeatEos]
    simp only [bind_assoc, pure_bind, ih]
    refine rd_bind_congr fun b => ?_
    cases b
    · simp only [Bool.false_eq_true, if_false, bind_assoc, pure_bind, List.map_cons]
    · rfl

@[ksy ↓] theorem repeated_times (r : Rd (Option PyVal)) (e) : repeated ev r (.times e) = (do
    let v ← ev .none e
    let k ← asInt v
    return some (.list (← repeatN k.toNat (always r)))) := rfl

@[ksy ↓] theorem repeated_until (r : Rd (Option PyVal)) (e) : repeated ev r (.until e) = (do
    let fuel ← loopFuel
    return some (.list (← repeatUntil fuel (always r) (fun x => do
      let v ← ev x e
      asBool v)))) := rfl

@[ksy ↓] theorem repeated_eos (r : Rd (Option PyVal)) : repeated ev r .eos = (do
    let fuel ← loopFuel
    return some (.list (← repeatEos fuel (always r)))) := rfl

@[ksy] theorem viewItems_map (l : List α) (f : α → PyVal) : viewItems (l.map f) = l.map fun x => view (f x) := by
  rw [viewItems_eq, List.map_map]; rfl

attribute [ksy] repeatN_map repeatUntil_map repeatEos_map

/-- `switch-on` case by case. -/
def cases_ (ev : Expr → Rd PyVal) (sub : TypeDef → Rd PyVal) (on : PyVal) (default : Option TypeDef) :
    List (Expr × TypeDef) → Rd (Option PyVal)
  | [] => match default with
    | some t => do return some (← sub t)
    | none => return none
  | (e, t) :: rest => do
    let v ← ev e
    if same on v then do return some (← sub t) else cases_ ev sub on default rest

theorem switch_cases (ev : Expr → Rd PyVal) (sub : TypeDef → Rd PyVal) (on : PyVal) (default : Option TypeDef)
    (cases : List (Expr × TypeDef)) :
    (do match ← choose ev on default cases with
        | some t => return some (← sub t)
        | none => return none) = cases_ ev sub on default cases := by
  induction cases with
  | nil => cases default <;> rfl
  | cons c rest ih =>
    obtain ⟨e, t⟩ := c
    simp only [choose, cases_, bind_assoc]
    refine rd_bind_congr fun v => ?_
    split
    · rfl
    · exact ih

@[ksy ↓] theorem readTy_switch (ev : Expr → Rd PyVal) (on cases default) :
    readTy ev sub (.switch on cases default) = (do
      let v ← ev on
      cases_ ev sub v default cases) := by
  simp only [readTy, readHere]
  exact rd_bind_congr fun v => switch_cases ev sub v default cases

theorem toNat_ofNat (n : Nat) : (Int.ofNat n).toNat = n := rfl

@[ksy] theorem readBytesInt_1 : readBytesInt 1 = readBytes 1 := readBytesInt_ofNat 1
@[ksy] theorem readBytesInt_2 : readBytesInt 2 = readBytes 2 := readBytesInt_ofNat 2
@[ksy] theorem readBytesInt_3 : readBytesInt 3 = readBytes 3 := readBytesInt_ofNat 3
@[ksy] theorem readBytesInt_4 : readBytesInt 4 = readBytes 4 := readBytesInt_ofNat 4
@[ksy] theorem readBytesInt_5 : readBytesInt 5 = readBytes 5 := readBytesInt_ofNat 5
@[ksy] theorem readBytesInt_6 : readBytesInt 6 = readBytes 6 := readBytesInt_ofNat 6
@[ksy] theorem readBytesInt_7 : readBytesInt 7 = readBytes 7 := readBytesInt_ofNat 7
@[ksy] theorem readBytesInt_8 : readBytesInt 8 = readBytes 8 := readBytesInt_ofNat 8
@[ksy] theorem readBytesInt_9 : readBytesInt 9 = readBytes 9 := readBytesInt_ofNat 9
@[ksy] theorem readBytesInt_10 : readBytesInt 10 = readBytes 10 := readBytesInt_ofNat 10
@[ksy] theorem readBytesInt_12 : readBytesInt 12 = readBytes 12 := readBytesInt_ofNat 12
@[ksy] theorem readBytesInt_14 : readBytesInt 14 = readBytes 14 := readBytesInt_ofNat 14
@[ksy] theorem readBytesInt_16 : readBytesInt 16 = readBytes 16 := readBytesInt_ofNat 16
@[ksy] theorem readBytesInt_17 : readBytesInt 17 = readBytes 17 := readBytesInt_ofNat 17
@[ksy] theorem readBytesInt_18 : readBytesInt 18 = readBytes 18 := readBytesInt_ofNat 18
@[ksy] theorem readBytesInt_19 : readBytesInt 19 = readBytes 19 := readBytesInt_ofNat 19
@[ksy] theorem readBytesInt_20 : readBytesInt 20 = readBytes 20 := readBytesInt_ofNat 20
@[ksy] theorem readBytesInt_22 : readBytesInt 22 = readBytes 22 := readBytesInt_ofNat 22
@[ksy] theorem readBytesInt_24 : readBytesInt 24 = readBytes 24 := readBytesInt_ofNat 24
@[ksy] theorem readBytesInt_32 : readBytesInt 32 = readBytes 32 := readBytesInt_ofNat 32
@[ksy] theorem readBytesInt_33 : readBytesInt 33 = readBytes 33 := readBytesInt_ofNat 33
@[ksy] theorem readBytesInt_34 : readBytesInt 34 = readBytes 34 := readBytesInt_ofNat 34
@[ksy] theorem readBytesInt_40 : readBytesInt 40 = readBytes 40 := readBytesInt_ofNat 40
@[ksy] theorem readBytesInt_124 : readBytesInt 124 = readBytes 124 := readBytesInt_ofNat 124
@[ksy] theorem readBytesInt_192 : readBytesInt 192 = readBytes 192 := readBytesInt_ofNat 192

@[ksy] theorem readBytesInt_natCast (n : Nat) : readBytesInt (n : Int) = readBytes n := readBytesInt_ofNat n

/-! ### Attributes parsed so far -/

theorem lookup_optAttr (n : String) (v : PyVal) (l) : List.lookup n (PyVal.optAttr n (some v) ++ l) = some v := by
  simp [PyVal.optAttr]

theorem lookup_optAttr_last (n : String) (v : PyVal) : List.lookup n (PyVal.optAttr n (some v)) = some v := by
  simp [PyVal.optAttr]

theorem lookup_optAttr_ne (n m : String) (h : n ≠ m) (o : Option PyVal) (l) :
    List.lookup n (PyVal.optAttr m o ++ l) = List.lookup n l := by
  cases o
  · rfl
  · simp [PyVal.optAttr, List.lookup, beq_false_of_ne h]

theorem lookup_optAttr_ne_last (n m : String) (h : n ≠ m) (o : Option PyVal) :
    List.lookup n (PyVal.optAttr m o) = none := by
  cases o
  · rfl
  · simp [PyVal.optAttr, List.lookup, beq_false_of_ne h]

theorem viewAttrs_attr' (n : String) (v : PyVal) :
    viewAttrs (PyVal.attr n v) = if hidden n then [] else PyVal.optAttr n (some (view v)) := by
  split
  · exact viewAttrs_attr_hidden n v (by assumption)
  · exact viewAttrs_attr n v (by simpa using ‹¬hidden n = true›)

theorem viewAttrs_optAttr' (n : String) (v : Option PyVal) :
    viewAttrs (PyVal.optAttr n v) = if hidden n then [] else PyVal.optAttr n (v.map view) := by
  split
  · exact viewAttrs_optAttr_hidden n v (by assumption)
  · exact viewAttrs_optAttr n v (by simpa using ‹¬hidden n = true›)

open Lean Meta in
/-- Decides `hidden` of a literal. -/
dsimproc reduceHidden (hidden _) := fun e => do
  let .lit (.strVal s) := e.appArg! | return .continue
  return .done (toExpr (s.toList.head? == some '_'))

open Lean Meta in
/-- The parts of a schema that is given by name. -/
def reduceTypeDef (e : Lean.Expr) : Lean.Meta.SimpM Lean.Meta.Simp.DStep := do
  unless e.appArg!.isConst do return .continue
  return .done (← whnfD e)

dsimproc reduceSeq (TypeDef.seq _) := reduceTypeDef
dsimproc reduceName (TypeDef.name _) := reduceTypeDef
dsimproc reduceTop (TypeDef.top _) := reduceTypeDef
dsimproc reduceInstances (TypeDef.instances _) := reduceTypeDef

/-- A member of an enumeration of the schema and of the Python program. -/
theorem same_known {E : Type} [PyEnum E] [LawfulEnum E] [DecidableEq E] (c : String) (on : EnumVal E) (e : E) :
    same (EnumVal.toPy c on) (.enum c (PyEnum.value e)) = decide (on = .known e) := by
  cases on with
  | known a =>
    simp only [EnumVal.toPy, same, beq_self_eq_true, Bool.true_and]
    by_cases h : a = e
    · subst h; simp
    · rw [decide_eq_false (by simpa using h)]
      exact beq_false_of_ne fun hv => h (PyEnum.value_inj hv)
  | raw v => simp [EnumVal.toPy, same]

@[ksy] theorem or_pure (c d : Bool) :
    (if c = true then (pure (.bool true) : Rd PyVal) else pure (.bool d)) = pure (.bool (c || d)) := by cases c <;> rfl

@[ksy] theorem and_pure (c d : Bool) :
    (if c = true then (pure (.bool d) : Rd PyVal) else pure (.bool false)) = pure (.bool (c && d)) := by cases c <;> rfl

@[ksy] theorem optionally_true (r : Rd α) : optionally true r = r >>= fun x => pure (some x) := rfl
@[ksy] theorem optionally_false (r : Rd α) : optionally false r = pure none := rfl

@[ksy] theorem viewAttrs_nil : viewAttrs [] = [] := rfl

@[ksy] theorem cast_le_10 (n : Nat) : ((n : Int) ≤ 10) = (n ≤ 10) := by apply propext; omega
@[ksy] theorem cast_ge_6 (n : Nat) : (6 ≤ (n : Int)) = (6 ≤ n) := by apply propext; omega
@[ksy] theorem cast_ge_198 (n : Nat) : (198 ≤ (n : Int)) = (198 ≤ n) := by apply propext; omega
@[ksy] theorem cast_ge_206 (n : Nat) : (206 ≤ (n : Int)) = (206 ≤ n) := by apply propext; omega
@[ksy] theorem cast_gt_0 (n : Nat) : (0 < (n : Int)) = (0 < n) := by apply propext; omega

theorem same_cast_0 (n : Nat) : same (.int (n : Int)) (.int 0) = decide (n = 0) := by
  rw [same]; exact Bool.eq_iff_iff.2 (by rw [beq_iff_eq, decide_eq_true_eq]; omega)

theorem same_cast_1 (n : Nat) : same (.int (n : Int)) (.int 1) = decide (n = 1) := by
  rw [same]; exact Bool.eq_iff_iff.2 (by rw [beq_iff_eq, decide_eq_true_eq]; omega)

theorem same_cast_4 (n : Nat) : same (.int (n : Int)) (.int 4) = decide (n = 4) := by
  rw [same]; exact Bool.eq_iff_iff.2 (by rw [beq_iff_eq, decide_eq_true_eq]; omega)

theorem same_cast_15 (n : Nat) : same (.int (n : Int)) (.int 15) = decide (n = 15) := by
  rw [same]; exact Bool.eq_iff_iff.2 (by rw [beq_iff_eq, decide_eq_true_eq]; omega)

theorem same_cast_20 (n : Nat) : same (.int (n : Int)) (.int 20) = decide (n = 20) := by
  rw [same]; exact Bool.eq_iff_iff.2 (by rw [beq_iff_eq, decide_eq_true_eq]; omega)

theorem same_cast_31 (n : Nat) : same (.int (n : Int)) (.int 31) = decide (n = 31) := by
  rw [same]; exact Bool.eq_iff_iff.2 (by rw [beq_iff_eq, decide_eq_true_eq]; omega)

theorem same_cast_32 (n : Nat) : same (.int (n : Int)) (.int 32) = decide (n = 32) := by
  rw [same]; exact Bool.eq_iff_iff.2 (by rw [beq_iff_eq, decide_eq_true_eq]; omega)

theorem same_cast_48 (n : Nat) : same (.int (n : Int)) (.int 48) = decide (n = 48) := by
  rw [same]; exact Bool.eq_iff_iff.2 (by rw [beq_iff_eq, decide_eq_true_eq]; omega)

/-- A computed instance. -/
theorem inst_value (n : Nat) (fr root : Frame) (name : String) (e : Expr)
    (h : fr.type.instances.lookup name = some (.value e)) :
    inst (n + 1) fr root name = eval (inst n) ⟨fr, fr, root⟩ .none e := by rw [inst, h]

/-- An instance that is parsed at a given position. -/
theorem inst_at (n : Nat) (fr root : Frame) (name : String) (p : Expr) (ty : Ty)
    (h : fr.type.instances.lookup name = some (.at p ty none)) :
    inst (n + 1) fr root name = (do
      let pos ← posIo
      let v ← eval (inst n) ⟨fr, fr, root⟩ .none p
      let at_ ← asInt v
      seekIo at_.toNat
      let v ← always (readTy (eval (inst n) ⟨fr, fr, root⟩ .none) (parse n ⟨fr, fr, root⟩) ty)
      seekIo pos
      return v) := by
  rw [inst, h]
  simp only [holds, pure_bind, if_true, bind_assoc]

/-- An instance that is parsed at a given position if a condition holds. -/
theorem inst_at_if (n : Nat) (fr root : Frame) (name : String) (p c : Expr) (ty : Ty)
    (h : fr.type.instances.lookup name = some (.at p ty (some c))) :
    inst (n + 1) fr root name = (do
      let v ← eval (inst n) ⟨fr, fr, root⟩ .none c
      let b ← asBool v
      if b then do
        let pos ← posIo
        let v ← eval (inst n) ⟨fr, fr, root⟩ .none p
        let at_ ← asInt v
        seekIo at_.toNat
        let v ← always (readTy (eval (inst n) ⟨fr, fr, root⟩ .none) (parse n ⟨fr, fr, root⟩) ty)
        seekIo pos
        return v
      else return .none) := by
  rw [inst, h]
  simp only [holds, bind_assoc]

@[ksy] theorem same_str (a b : PyStr) : same (.str a) (.str b) = decide (a = b) := by
  rw [same]; exact Bool.eq_iff_iff.2 (by simp)

@[ksy] theorem toI_0 : Int.toNat 0 = 0 := rfl
@[ksy] theorem toI_4 : Int.toNat 4 = 4 := rfl
@[ksy] theorem toI_128 : Int.toNat 128 = 128 := rfl

theorem toPy_known {E : Type} [PyEnum E] (c : String) (e : E) : EnumVal.toPy c (.known e) = .enum c (PyEnum.value e) := rfl
theorem toPy_raw {E : Type} [PyEnum E] (c : String) (v : Nat) : EnumVal.toPy c (.raw v : EnumVal E) = .int v := rfl

@[ksy] theorem if_loopFuel (c : Bool) (f : Nat → Rd α) (g : Rd α) :
    (if c = true then loopFuel >>= f else g) = loopFuel >>= fun fuel => if c = true then f fuel else g := by
  cases c <;> rfl

/-- Asking for the end of the stream has no effect. -/
theorem isEof_pure (x : α) : (isEof >>= fun _ => pure x : Rd α) = pure x := by
  funext s
  show Rd.bind isEof (fun _ => Rd.pure x) s = Rd.pure x s
  unfold Rd.bind isEof
  rfl

@[ksy] theorem or_isEof (c : Bool) :
    (if c = true then (pure (.bool true) : Rd PyVal) else isEof >>= fun b => pure (.bool b)) =
      isEof >>= fun b => pure (.bool (c || b)) := by
  cases c
  · rfl
  · exact (isEof_pure _).symm

theorem get_attr (c : String) (attrs : List (String × PyVal)) (name : String) :
    getAttr (.struct c attrs) name = match attrs.lookup name with
      | some v => pure v
      | none => Rd.throw .attribute := rfl

attribute [ksy ↓] cases_
attribute [ksy] Prim.read Encoding.codec eval look asInt asBool map_eq_pure_bind bind_assoc pure_bind
  Ty.isBits Bool.false_and Bool.and_false Bool.and_true Bool.true_and Bool.not_true Bool.not_false if_true if_false
  Bool.false_eq_true view_object List.flatten_cons List.flatten_nil List.append_nil viewAttrs_append List.nil_append
  List.append_assoc viewAttrs_attr' viewAttrs_optAttr' view view_enum Int.ofNat_eq_natCast Int.toNat_natCast ge_iff_le gt_iff_lt
  Option.map_some Option.map_none decide_eq_true_eq decide_true decide_false
  if_optionally Option.map_map Function.comp_def List.length_cons List.length_nil Nat.zero_add
  lookup_optAttr lookup_optAttr_last lookup_optAttr_ne lookup_optAttr_ne_last reduceIte ne_eq not_false_eq_true BinOp.apply

theorem enum_bits {E : Type} [PyEnum E] {d : EnumDef} {c : String} (h : ∀ v, d.resolve v = EnumVal.toPy c (resolveEnum E v))
    (ev : Expr → Rd PyVal) (sub : TypeDef → Rd PyVal) (n : Nat) :
    readTy ev sub (.bitsEnum n d) = asEnum E (readBitsIntBe n) >>= fun e => pure (some (EnumVal.toPy c e)) := by
  simp only [readTy, readHere, asEnum, h, bind_assoc, pure_bind]

theorem enum_prim {E : Type} [PyEnum E] {d : EnumDef} {c : String} (h : ∀ v, d.resolve v = EnumVal.toPy c (resolveEnum E v))
    (p : Prim) (r : Rd Nat) (hp : p.read = Int.ofNat <$> r) (ev : Expr → Rd PyVal) (sub : TypeDef → Rd PyVal) :
    readTy ev sub (.primEnum p d) = asEnum E r >>= fun e => pure (some (EnumVal.toPy c e)) := by
  simp only [readTy, readHere, asEnum, h, hp, map_eq_pure_bind, bind_assoc, pure_bind, toNat_ofNat]

/-- Computes both sides of a conformance statement. -/
macro "ksy_simp" "[" ts:Lean.Parser.Tactic.simpLemma,* "]" : tactic => `(tactic|
  simp only [ksy, String.reduceEq, String.reduceNe, Nat.reduceAdd, Nat.reduceEqDiff, reduceHidden, reduceSeq, reduceName, reduceTop, reduceInstances, $ts,*])

/-- Two readers that begin in the same way. -/
macro "ksy_same" : tactic => `(tactic| repeat with_reducible refine rd_bind_congr fun _ => ?_)

/-- A `switch` over the enumeration `E`, against the chain of conditions `r` in the Python program. -/
macro "ksy_switch" r:ident u:ident e:term : tactic => `(tactic| (
  ksy_same
  rename EnumVal $e => on
  rcases on with e | v
  · cases e <;> ksy_simp [$r:ident, $u:ident, EnumVal.known.injEq, reduceCtorEq, decide_false, decide_true, decide_eq_true_eq, Option.map_some, Option.map_none]
  · ksy_simp [$r:ident, $u:ident, EnumVal.known.injEq, reduceCtorEq, decide_false, decide_true, decide_eq_true_eq, Option.map_some, Option.map_none]))

end Dmr.Ksy
