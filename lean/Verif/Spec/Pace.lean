import Verif.Model.Pace

/-! Vocabulary for the pace of the frames. -/

namespace IIVision.Spec

/-- Rounding to double precision, within a range of magnitudes without over- and underflow. -/
structure Double (rnd : Rat → Rat) : Prop where
  zero : rnd 0 = 0
  close : ∀ x : Rat, 1 / 2 ^ 200 ≤ x → x ≤ 2 ^ 200 → x - x / 2 ^ 53 ≤ rnd x ∧ rnd x ≤ x + x / 2 ^ 53

/-- Seconds from the start of the input to its frame `k`, at a rate of `n / d` frames per second. -/
def frameTime (n d k : Nat) : Rat := k * d / n

/-- Seconds from the start of the sound to the end of its sample number `t` (counted from 1), at `b`
samples per second. -/
def soundTime (b t : Nat) : Rat := t / b

/-- The numbers of a movie: frames per second `n / d`, samples per second `b`, all of them 32 bit
integers, at least two samples per frame. -/
structure GoodRates (n d b : Nat) : Prop where
  n1 : 1 ≤ n
  n2 : n < 2 ^ 32
  d1 : 1 ≤ d
  d2 : d < 2 ^ 32
  b1 : 1 ≤ b
  b2 : b < 2 ^ 32
  two : 2 * n ≤ b * d

end IIVision.Spec
