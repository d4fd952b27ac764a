theorem Hytera.HyteraSimpleTransportReliabilityProtocol.spec_errs (b : Bytes) (q : Nat) :
    Errs @KINDS (Hytera.HyteraSimpleTransportReliabilityProtocol.spec b q) := by
  unfold Hytera.HyteraSimpleTransportReliabilityProtocol.spec
  refine Errs.fixedAt (by decide) (by decide) ?_
  unfold upTo
  by_cases h6 : q + 6 ≤ b.length
  · rw [if_pos h6]
    refine Errs.next (by decide) (Errs.optPart ?_) fun _ e1 h1 => ?_
    · exact Errs.mono (Errs.chain Hytera.HyteraSimpleTransportReliabilityProtocol.Option.advances
        (Hytera.HyteraSimpleTransportReliabilityProtocol.Option.parses.range b)
        (Hytera.HyteraSimpleTransportReliabilityProtocol.Option.spec_errs b) (q + 6) h6) (by decide)
    refine Errs.next (by decide) (Errs.optPart ?_) fun _ e2 _ => Errs.ok _
    exact Errs.mono (Errs.toEnd Hytera.HyteraDmrApplicationProtocol.advances (Hytera.HyteraDmrApplicationProtocol.parses.range b)
      (Hytera.HyteraDmrApplicationProtocol.spec_errs b) e1 h1) (by decide)
  · rw [if_neg h6]
    exact Errs.error (by decide)
