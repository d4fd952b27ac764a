theorem Motorola.varBytes_errs (b : Bytes) (q : Nat) : Errs [.EOFError] (Motorola.varBytes b q) := by
  unfold Motorola.varBytes
  by_cases hq : q ≤ b.length
  · refine Errs.chain ?_ (fun _ _ => InRange.whole) (fun _ => Errs.whole (by decide)) q hq
    intro b q a e h
    unfold whole at h
    split at h
    · cases h; omega
    · cases h
  · rw [Dmr.chain, whole, if_neg (by omega)]
    exact Errs.error (by decide)
