/-! A way of taking apart `do` blocks that leaves the terms in them alone (some are expensive to evaluate). -/

namespace IIVision

theorem bind_ok_elim {ε α β : Type} {P : Prop} {x : Except ε α} {f : α → Except ε β} {y : β} (h : x >>= f = .ok y)
    (k : ∀ a, f a = .ok y → P) : P := by
  cases x with
  | error e => cases h
  | ok a => exact k a h

end IIVision
