import Verif.Spec.Pcm
import Verif.Spec.Audio
import Mathlib.Algebra.Order.Field.Rat
import Mathlib.Algebra.Order.AbsoluteValue.Basic

/-! Vocabulary for the sound that is heard. -/

namespace IIVision.Spec

/-- Rounding to 32 bit floating point numbers: a relative error of 2^-24, and near zero an absolute one. -/
def Single (rnd : Rat → Flt) : Prop := ∀ x, |x| ≤ 2 ^ 127 → ∃ x', rnd x = .fin x' ∧ |x' - x| ≤ |x| / 2 ^ 24 + 1 / 2 ^ 149

/-- The mean of the channels of a frame of sound. -/
def meanOf (f : List Int) : Rat := ((f.sum : Int) : Rat) / ((f.length : Nat) : Rat)

/-- The level of a frame of sound with the normalisation `N`: between -1 and 1 unless it is too loud. -/
def level (N : Rat) (f : List Int) : Rat := N * meanOf f / 16384

/-- The pulse of the speaker that would reproduce the level `y` without an error: silence is 34 of the 73 cycles of a tick, full level is 32 cycles more or less. -/
def idealPulse (y : Rat) : Rat := 34 + 32 * y

/-- What a pulse of `w` cycles says about the level `y` of the sound.  `tiny` stands for the rounding errors. -/
structure Follows (w : Nat) (y : Rat) : Prop where
  /-- the pulse is at most three cycles too short and at most two too long -/
  near : |y| ≤ 1 → idealPulse y - 3 - 1 / 2 ^ 15 ≤ w ∧ w ≤ idealPulse y + 2 + 1 / 2 ^ 15
  /-- quiet sound is silence -/
  quiet : |y| ≤ 1 / 16 - 1 / 2 ^ 20 → w = 34
  loud : 1 + 1 / 2 ^ 20 ≤ y → w = 66
  deep : y ≤ -1 → w = 4

end IIVision.Spec
