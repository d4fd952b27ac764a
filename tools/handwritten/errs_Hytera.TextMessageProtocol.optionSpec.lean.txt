theorem Hytera.TextMessageProtocol.optionSpec_errs (n : Option Nat) (b : Bytes) (q : Nat) :
    Errs @KINDS (Hytera.TextMessageProtocol.optionSpec n b q) := by
  cases n <;> unfold Hytera.TextMessageProtocol.optionSpec <;> only_errs []
