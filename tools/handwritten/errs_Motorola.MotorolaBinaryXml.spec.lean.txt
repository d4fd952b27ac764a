theorem Motorola.MotorolaBinaryXml.spec_errs (b : Bytes) (q : Nat) (hq : q ≤ b.length) : Errs @KINDS (Motorola.MotorolaBinaryXml.spec b q) := by
  unfold Motorola.MotorolaBinaryXml.spec
  exact Errs.as _ (Errs.chain Motorola.MotorolaBinaryXml.MbxmlDocument.advances (Motorola.MotorolaBinaryXml.MbxmlDocument.parses.range b)
    (Motorola.MotorolaBinaryXml.MbxmlDocument.spec_errs b) q hq)
