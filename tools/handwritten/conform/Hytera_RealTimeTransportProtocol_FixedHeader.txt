/-- An element with a required value. -/
@[ksy ↓] theorem read_valid (ev : PyVal → Expr → Rd PyVal) (sub : TypeDef → Rd PyVal) (id k e place) :
    Attr.read ev sub ⟨id, .bits k, none, .once, some (e, place)⟩ = (do
      let x ← readBitsIntBe k
      let w ← ev .none e
      if same (.int (Int.ofNat x)) w then return some (.int (Int.ofNat x)) else Rd.throw (.validation place)) := by
  simp only [Attr.read, holds, repeated, pure_bind, if_true, readTy_bits, bind_assoc]

/-- The required value 2. -/
@[ksy] theorem valid_2 (x : Nat) (place : String) (f : Option PyVal → Rd α) :
    ((if same (.int (x : Int)) (.int 2) = true then pure (some (.int (x : Int))) else Rd.throw (.validation place)) >>= f) =
      (validateEq x 2 place >>= fun _ => f (some (.int (x : Int)))) := by
  unfold validateEq
  by_cases h : x = 2
  · subst h; rfl
  · rw [if_neg h, if_neg (by rw [same]; simp; omega)]; rfl

/-- okdmr/kaitai/hytera/real_time_transport_protocol.ksy type `fixed_header` against
`Dmr.Hytera.RealTimeTransportProtocol.FixedHeader`. -/
@[ksy ↓] theorem RealTimeTransportProtocol_FixedHeader_conforms (n : Nat) (sc : Scope) :
    parse (n + 1) sc Hytera.RealTimeTransportProtocol.FixedHeader =
      (fun x => view (Dmr.Hytera.RealTimeTransportProtocol.FixedHeader.toPy x)) <$>
        Dmr.Hytera.RealTimeTransportProtocol.FixedHeader.read := by
  rw [parse_succ]
  ksy_simp [Dmr.Hytera.RealTimeTransportProtocol.FixedHeader.read, Dmr.Hytera.RealTimeTransportProtocol.FixedHeader.toPy]
